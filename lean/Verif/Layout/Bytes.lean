import Verif.Layout.Model
import Mathlib.Tactic.Lemma
import Mathlib.Tactic.Ring
import Mathlib.Tactic.Linarith
import Mathlib.Tactic.NormNum

/-! # Memory, numbers, arrays and records as bytes: the lemmas behind property C147 -/

set_option autoImplicit false

namespace Forcepho.Layout

/-! ## Memory -/

lemma load_length (m : Mem) (a n : Nat) : (load m a n).length = n := by simp [load]

lemma load_get (m : Mem) (a n i : Nat) (h : i < n) : (load m a n)[i]? = some (m (a + i)) := by
  simp [load, h]

/-- A part of what was loaded. -/
lemma load_sub (m : Mem) (a n o k : Nat) (h : o + k ≤ n) :
    load m (a + o) k = ((load m a n).drop o).take k := by
  apply List.ext_getElem?
  intro i
  by_cases hi : i < k
  · rw [load_get _ _ _ _ hi, List.getElem?_take_of_lt hi, List.getElem?_drop, load_get _ _ _ _ (by omega)]
    rw [Nat.add_assoc]
  · rw [List.getElem?_eq_none (by rw [load_length]; omega),
      List.getElem?_eq_none (by simp [load_length]; omega)]

lemma load_store (m : Mem) (a : Nat) (bs : List Byte) : load (store m a bs) a bs.length = bs := by
  apply List.ext_getElem?
  intro i
  by_cases hi : i < bs.length
  · rw [load_get _ _ _ _ hi]
    simp [store, hi]
  · rw [List.getElem?_eq_none (by rw [load_length]; omega), List.getElem?_eq_none (by omega)]

lemma load_store_of_disjoint (m : Mem) (a b n : Nat) (bs : List Byte)
    (h : b + n ≤ a ∨ a + bs.length ≤ b) : load (store m a bs) b n = load m b n := by
  apply List.ext_getElem?
  intro i
  by_cases hi : i < n
  · rw [load_get _ _ _ _ hi, load_get _ _ _ _ hi]
    unfold store
    rcases h with h | h
    · rw [if_neg (by omega)]
    · split
      · rw [List.getElem?_eq_none (by omega)]; rfl
      · rfl
  · rw [List.getElem?_eq_none (by rw [load_length]; omega),
      List.getElem?_eq_none (by rw [load_length]; omega)]

/-! ## Numbers -/

lemma toLE_length (n v : Nat) : (toLE n v).length = n := by
  induction n generalizing v with
  | zero => rfl
  | succ n ih => simp [toLE, ih]

lemma ofLE_toLE (n v : Nat) (h : v < 256 ^ n) : ofLE (toLE n v) = v := by
  induction n generalizing v with
  | zero => simp at h; simp [toLE, ofLE, h]
  | succ n ih =>
    rw [toLE, ofLE, ih _ (by rw [pow_succ] at h; omega)]
    exact Nat.mod_add_div v 256

lemma ofLE_lt (l : List Byte) : ofLE l < 256 ^ l.length := by
  induction l with
  | nil => simp [ofLE]
  | cons b l ih =>
    have := b.isLt
    rw [ofLE, List.length_cons, pow_succ]
    omega

lemma toInt_length (n : Nat) (v : Int) : (toInt n v).length = n := toLE_length _ _

/-- What a signed number of `n` bytes reads back as: itself in range. -/
lemma ofInt_toInt (n : Nat) (v : Int) (h0 : -(256 ^ n : Nat) ≤ 2 * v) (h1 : 2 * v < (256 ^ n : Nat)) :
    ofInt (toInt n v) = v := by
  have hp : 0 < 256 ^ n := Nat.pos_of_ne_zero (by positivity)
  have hlt : (v % (256 ^ n : Nat)).toNat < 256 ^ n := by
    have := Int.emod_lt_of_pos v (b := ((256 ^ n : Nat) : Int)) (by exact_mod_cast hp)
    have := Int.emod_nonneg v (b := ((256 ^ n : Nat) : Int)) (by positivity)
    omega
  unfold ofInt
  rw [toInt_length, toInt, ofLE_toLE _ _ hlt]
  generalize hN : 256 ^ n = N at *
  rcases le_or_gt 0 v with hv | hv
  · rw [Int.emod_eq_of_lt hv (by omega)]
    split <;> omega
  · have e : v % (N : Int) = v + N := by
      rw [← Int.add_emod_right, Int.emod_eq_of_lt (by omega) (by omega)]
    rw [e]
    split <;> omega

/-! ## Arrays -/

lemma flatMap_range_length {β : Type} (f : Nat → List β) (n w : Nat) (h : ∀ i < n, (f i).length = w) :
    ((List.range n).flatMap f).length = n * w := by
  induction n with
  | zero => simp
  | succ n ih =>
    rw [List.range_succ, List.flatMap_append, List.length_append, ih fun i hi => h i (by omega)]
    simp [h n (by omega)]
    ring

/-- Row `i` of equal rows written one after the other. -/
lemma flatMap_range_sub {β : Type} (f : Nat → List β) (n w i : Nat) (h : ∀ i < n, (f i).length = w) (hi : i < n) :
    (((List.range n).flatMap f).drop (i * w)).take w = f i := by
  induction n with
  | zero => omega
  | succ n ih =>
    have hl := flatMap_range_length f n w fun i hi => h i (by omega)
    rw [List.range_succ, List.flatMap_append]
    rcases Nat.lt_or_ge i n with h1 | h1
    · have : i * w + w ≤ n * w := by nlinarith
      rw [List.drop_append_of_le_length (by rw [hl]; omega), List.take_append_of_le_length (by simp [hl]; omega)]
      exact ih (fun i hi => h i (by omega)) h1
    · have e : i = n := by omega
      subst e
      rw [← hl, List.drop_left]
      simp [h i hi]

lemma arrBytes_length (s : List Nat) (v : List Nat → List Byte) (w : Nat) (h : ∀ l, (v l).length = w) :
    (arrBytes s v).length = w * s.prod := by
  induction s generalizing v with
  | nil => simp [arrBytes, h]
  | cons n s ih =>
    rw [arrBytes, flatMap_range_length _ n (w * s.prod) fun i _ => ih _ fun l => h _]
    simp
    ring

/-- Entry `idx` of an array is found at numpy's strides. -/
lemma arrBytes_sub (w : Nat) (s idx : List Nat) (v : List Nat → List Byte) (h : ∀ l, (v l).length = w)
    (hi : List.Forall₂ (· < ·) idx s) :
    ((arrBytes s v).drop (npAddress w s idx)).take w = v idx ∧ npAddress w s idx + w ≤ (arrBytes s v).length := by
  induction hi generalizing v with
  | nil => simp [arrBytes, npAddress, ← h []]
  | @cons i n l s hin _ ih =>
    have hr : ∀ i < n, (arrBytes s fun l => v (i :: l)).length = w * s.prod :=
      fun i _ => arrBytes_length _ _ _ fun l => h _
    obtain ⟨ih1, ih2⟩ := ih (fun l => v (i :: l)) fun l => h _
    rw [hr i hin] at ih2
    have hs := flatMap_range_sub _ n _ i hr hin
    rw [arrBytes, npAddress]
    constructor
    · rw [← List.drop_drop]
      rw [← hs] at ih1
      rw [← ih1]
      rw [List.drop_take, List.take_take, min_eq_left (by omega)]
    · rw [flatMap_range_length _ n _ hr]
      have : (i + 1) * (w * s.prod) ≤ n * (w * s.prod) := Nat.mul_le_mul_right _ hin
      rw [Nat.add_mul, one_mul] at this
      omega

/-! ## Records -/

lemma setAt_length (bs v : List Byte) (o : Nat) (h : o + v.length ≤ bs.length) :
    (setAt bs o v).length = bs.length := by
  simp [setAt]; omega

lemma setAt_same (bs v : List Byte) (o : Nat) (h : o + v.length ≤ bs.length) :
    ((setAt bs o v).drop o).take v.length = v := by
  have : (bs.take o).length = o := by simp; omega
  rw [setAt, List.append_assoc, List.drop_left' this]
  simp

/-- A field before a changed one keeps its bytes. -/
lemma setAt_before (bs v : List Byte) (o o' n : Nat) (h : o + v.length ≤ bs.length) (h' : o' + n ≤ o) :
    ((setAt bs o v).drop o').take n = (bs.drop o').take n := by
  rw [setAt, List.append_assoc, List.drop_append_of_le_length (by simp; omega),
    List.take_append_of_le_length (by simp; omega), List.drop_take, List.take_take, min_eq_left (by omega)]

/-- The fields of a record, when they do not overlap. -/
lemma fold_fields {ν : Type} (val : ν → List Byte) (ps : List (ν × Nat)) :
    ∀ bs : List Byte, (∀ x ∈ ps, x.2 + (val x.1).length ≤ bs.length) →
      ps.Pairwise (fun x y => x.2 + (val x.1).length ≤ y.2) →
      (ps.foldl (fun bs p => setAt bs p.2 (val p.1)) bs).length = bs.length ∧
      (∀ o n, (∀ x ∈ ps, o + n ≤ x.2) →
        ((ps.foldl (fun bs p => setAt bs p.2 (val p.1)) bs).drop o).take n = (bs.drop o).take n) ∧
      ∀ x ∈ ps, ((ps.foldl (fun bs p => setAt bs p.2 (val p.1)) bs).drop x.2).take (val x.1).length = val x.1 := by
  induction ps with
  | nil => intro bs _ _; simp
  | cons p ps ih =>
    intro bs hb hp
    rw [List.pairwise_cons] at hp
    have h0 := hb p (by simp)
    have hl := setAt_length bs (val p.1) p.2 h0
    obtain ⟨i1, i2, i3⟩ := ih (setAt bs p.2 (val p.1)) (fun x hx => by rw [hl]; exact hb x (by simp [hx])) hp.2
    refine ⟨by rw [List.foldl_cons, i1, hl], ?_, ?_⟩
    · intro o n h
      rw [List.foldl_cons, i2 o n fun x hx => h x (by simp [hx]), setAt_before _ _ _ _ _ h0 (h p (by simp))]
    · intro x hx
      rw [List.foldl_cons]
      rcases List.mem_cons.1 hx with rfl | hx
      · rw [i2 _ _ fun y hy => hp.1 y hy, setAt_same _ _ _ h0]
      · exact i3 x hx

/-! ## Offsets -/

lemma roundUp_ge (n a : Nat) (h : 0 < a) : n ≤ roundUp n a := by
  unfold roundUp
  have := Nat.div_add_mod (n + a - 1) a
  have := Nat.mod_lt (n + a - 1) h
  rw [Nat.mul_comm]
  omega

lemma roundUp_dvd (n a : Nat) : a ∣ roundUp n a := Dvd.intro_left _ rfl

lemma roundUp_least (n a k : Nat) (h : 0 < a) (hk : a ∣ k) (hn : n ≤ k) : roundUp n a ≤ k := by
  obtain ⟨c, rfl⟩ := hk
  unfold roundUp
  rw [Nat.mul_comm a c]
  apply Nat.mul_le_mul_right
  rw [Nat.div_le_iff_le_mul_add_pred h]
  have : a * c + (a - 1) ≥ n + a - 1 := by omega
  rw [Nat.mul_comm] at *
  omega

lemma Np.size_pos (t : Np) : 0 < t.size := by cases t <;> decide
lemma CTy.size_pos (t : CTy) : 0 < t.size := by cases t <;> simp [CTy.size]

variable {ν : Type}

lemma npOffsets_ge (al : Bool) (l : List (Member ν Np)) : ∀ n, ∀ x ∈ npOffsets al n l, n ≤ x.2 := by
  induction l with
  | nil => intro n x h; simp [npOffsets] at h
  | cons f l ih =>
    intro n x h
    have hr : n ≤ (if al then roundUp n f.ty.size else n) := by
      split
      · exact roundUp_ge _ _ f.ty.size_pos
      · exact le_rfl
    simp only [npOffsets, List.mem_cons] at h
    rcases h with rfl | h
    · exact hr
    · have := ih _ x h
      omega

/-- Fields do not overlap and end before the record does. -/
lemma npOffsets_fields (al : Bool) (val : ν → List Byte) (l : List (Member ν Np))
    (hv : ∀ f ∈ l, (val f.name).length = f.count * f.ty.size) : ∀ n,
    (npOffsets al n l).Pairwise (fun x y => x.2 + (val x.1).length ≤ y.2) ∧
    ∀ x ∈ npOffsets al n l, x.2 + (val x.1).length ≤ npEnd al n l := by
  induction l with
  | nil => intro n; simp [npOffsets]
  | cons f l ih =>
    intro n
    obtain ⟨i1, i2⟩ := ih (fun g hg => hv g (by simp [hg]))
      ((if al then roundUp n f.ty.size else n) + f.count * f.ty.size)
    have hf := hv f (by simp)
    have hend : ∀ (l : List (Member ν Np)) (n : Nat), n ≤ npEnd al n l := by
      intro l
      induction l with
      | nil => intro n; exact le_rfl
      | cons g l ih =>
        intro n
        refine le_trans ?_ (ih _)
        split
        · have := roundUp_ge n g.ty.size g.ty.size_pos
          omega
        · omega
    simp only [npOffsets, npEnd, List.pairwise_cons, List.mem_cons]
    refine ⟨⟨?_, i1⟩, ?_⟩
    · intro y hy
      have := npOffsets_ge al l _ y hy
      rw [hf]
      exact this
    · rintro x (rfl | hx)
      · rw [hf]; exact hend _ _
      · exact i2 x hx

lemma npEnd_le_itemsize (al : Bool) (l : List (Member ν Np)) : npEnd al 0 l ≤ npItemsize al l := by
  unfold npItemsize
  split
  · rename_i h
    subst h
    apply roundUp_ge
    cases l with
    | nil => simp
    | cons f l => simp [f.ty.size_pos]
  · exact le_rfl

/-- Every field of a record can be read back at its offset. -/
lemma record_field (al : Bool) (l : List (Member ν Np)) (val : ν → List Byte)
    (hv : ∀ f ∈ l, (val f.name).length = f.count * f.ty.size) :
    (recordBytes al l val).length = npItemsize al l ∧
    ∀ x ∈ npOffsets al 0 l, ((recordBytes al l val).drop x.2).take (val x.1).length = val x.1 ∧
      x.2 + (val x.1).length ≤ npItemsize al l := by
  obtain ⟨h1, h2⟩ := npOffsets_fields al val l hv 0
  have he := npEnd_le_itemsize al l
  obtain ⟨f1, -, f3⟩ := fold_fields val (npOffsets al 0 l) (List.replicate (npItemsize al l) 0)
    (fun x hx => by rw [List.length_replicate]; exact (h2 x hx).trans he) h1
  refine ⟨by rw [recordBytes, f1, List.length_replicate], fun x hx => ⟨f3 x hx, (h2 x hx).trans he⟩⟩

end Forcepho.Layout
