import Verif.Postprocess.Images

/-! # C65: images made from residual files

The specification speaks of the stored coordinates only: the value of a pixel is that of the last
stored pixel with its coordinates. -/

set_option autoImplicit false
set_option linter.unusedSectionVars false

namespace Forcepho.Postprocess

variable {V : Type}

/-! ## Specification -/

/-- Element `k` is the last one of `l` with property `P`. -/
def LastAt {α : Type} (P : α → Prop) (l : List α) (k : Nat) : Prop :=
  (∃ p, l[k]? = some p ∧ P p) ∧ ∀ (k' : Nat) (p' : α), k < k' → l[k']? = some p' → ¬ P p'

/-- The stored coordinate `q` designates index `i` of an axis of length `n`. -/
def AxisHit (n : Nat) (q : ℚ) (i : Nat) : Prop := trunc q = i ∨ trunc q = (i : Int) - n

/-- The stored pixel designates pixel `(i, j)`. -/
def Hit (nx ny i j : Nat) (p : ℚ × ℚ) : Prop := AxisHit nx p.1 i ∧ AxisHit ny p.2 j

/-- The pixel is the one at `(i, j)`. -/
def At (i j : Nat) (p : ℚ × ℚ) : Prop := p = ((i : ℚ), (j : ℚ))

/-- Value of a pixel after the stored pixels `c` with values `a` were put into an image where the pixel
was `old`. -/
def PixelValue (P : ℚ × ℚ → Prop) (c : List (ℚ × ℚ)) (a : List V) (old now : V) : Prop :=
  (∃ k v, LastAt P c k ∧ a[k]? = some v ∧ now = v) ∨ ((∀ p ∈ c, ¬ P p) ∧ now = old)

/-! ## Lemmas -/

lemma trunc_natCast (n : Nat) : trunc (n : ℚ) = n := by
  unfold trunc
  rw [if_pos (Nat.cast_nonneg n)]
  exact Int.floor_natCast n

lemma wrap_iff (n : Nat) (z : Int) (i : Nat) : wrap n z = some i ↔ i < n ∧ (z = i ∨ z = (i : Int) - n) := by
  unfold wrap
  constructor
  · intro h
    split at h
    · obtain rfl : z.toNat = i := by simpa using h
      omega
    · split at h
      · obtain rfl : (z + n).toNat = i := by simpa using h
        omega
      · simp at h
  · rintro ⟨hi, rfl | rfl⟩
    · rw [if_pos ⟨by omega, by omega⟩]; simp
    · have k1 : ¬ (0 ≤ (i : Int) - n ∧ (i : Int) - n < n) := by omega
      rw [if_neg k1, if_pos ⟨by omega, by omega⟩]
      simp

lemma cell_iff (nx ny : Nat) (p : Int × Int) (i j : Nat) :
    cell nx ny p = some (i, j) ↔ wrap nx p.1 = some i ∧ wrap ny p.2 = some j := by
  unfold cell
  cases hx : wrap nx p.1 with
  | none => simp
  | some x =>
    cases hy : wrap ny p.2 with
    | none => simp
    | some y => simp

lemma mapM_some_iff {α β : Type} (f : α → Option β) (l : List α) (r : List β) :
    l.mapM f = some r ↔ l.length = r.length ∧ ∀ (k : Nat) (a : α), l[k]? = some a → f a = r[k]? := by
  induction l generalizing r with
  | nil =>
    simp only [List.mapM_nil, List.length_nil]
    constructor
    · intro h
      obtain rfl : [] = r := by simpa using h
      simp
    · rintro ⟨h, -⟩
      obtain rfl := List.length_eq_zero_iff.mp h.symm
      rfl
  | cons a l ih =>
    rw [List.mapM_cons]
    constructor
    · intro h
      cases hfa : f a with
      | none => rw [hfa] at h; simp at h
      | some b =>
        rw [hfa] at h
        cases hl : l.mapM f with
        | none => rw [hl] at h; simp at h
        | some bs =>
          rw [hl] at h
          obtain rfl : b :: bs = r := by simpa using h
          obtain ⟨h1, h2⟩ := (ih bs).mp hl
          refine ⟨by simp [h1], ?_⟩
          intro k x hk
          cases k with
          | zero =>
            obtain rfl : a = x := by simpa using hk
            simpa using hfa
          | succ k => simpa using h2 k x (by simpa using hk)
    · rintro ⟨h1, h2⟩
      cases r with
      | nil => simp at h1
      | cons b bs =>
        have hb : f a = some b := by simpa using h2 0 a rfl
        have hbs : l.mapM f = some bs :=
          (ih bs).mpr ⟨by simpa using h1, fun k x hk => by simpa using h2 (k + 1) x (by simpa using hk)⟩
        rw [hb, hbs]
        rfl

lemma foldl_put (l : List ((Nat × Nat) × V)) (f : Nat → Nat → V) (i j : Nat) :
    (∃ (k : Nat) (t : (Nat × Nat) × V), l[k]? = some t ∧ t.1 = (i, j) ∧
      (∀ (k' : Nat) (t' : (Nat × Nat) × V), k < k' → l[k']? = some t' → t'.1 ≠ (i, j)) ∧
      l.foldl put f i j = t.2) ∨
    ((∀ t ∈ l, t.1 ≠ (i, j)) ∧ l.foldl put f i j = f i j) := by
  induction l generalizing f with
  | nil => right; simp
  | cons a l ih =>
    rw [List.foldl_cons]
    rcases ih (put f a) with ⟨k, t, h1, h2, h3, h4⟩ | ⟨h1, h2⟩
    · left
      refine ⟨k + 1, t, by simpa using h1, h2, ?_, h4⟩
      intro k' t' hk' ht'
      cases k' with
      | zero => omega
      | succ k' => exact h3 k' t' (by omega) (by simpa using ht')
    · by_cases ha : a.1 = (i, j)
      · left
        refine ⟨0, a, rfl, ha, ?_, ?_⟩
        · intro k' t' hk' ht'
          cases k' with
          | zero => omega
          | succ k' => exact h1 t' (List.mem_of_getElem? (by simpa using ht'))
        · rw [h2]; unfold put; rw [if_pos ha.symm]
      · right
        refine ⟨?_, ?_⟩
        · intro t ht
          rcases List.mem_cons.mp ht with rfl | ht
          · exact ha
          · exact h1 t ht
        · rw [h2]; unfold put; rw [if_neg fun h => ha h.symm]

lemma broadcast_eq (arr : List V) (n : Nat) (h : arr.length = n) : broadcast n arr = some arr := by
  unfold broadcast; rw [if_pos h]

/-- What an assignment with as many values as coordinates does. -/
lemma assign_spec (im im' : Image V) (c : List (ℚ × ℚ)) (d : ℚ × ℚ) (a : List V) (hl : a.length = c.length)
    (h : assign im (c.map fun p => (trunc (p.1 - d.1), trunc (p.2 - d.2))) a = .ok im') :
    im'.nx = im.nx ∧ im'.ny = im.ny ∧ ∀ i j, i < im.nx → j < im.ny →
      PixelValue (fun p => Hit im.nx im.ny i j (p.1 - d.1, p.2 - d.2)) c a (im.pix i j) (im'.pix i j) := by
  unfold assign at h
  cases hm : (c.map fun p => (trunc (p.1 - d.1), trunc (p.2 - d.2))).mapM (cell im.nx im.ny) with
  | none => rw [hm] at h; simp at h
  | some cells =>
    rw [hm] at h
    dsimp only at h
    obtain ⟨hlen, hcell⟩ := (mapM_some_iff _ _ _).mp hm
    have hcl : cells.length = c.length := by simpa using hlen.symm
    rw [broadcast_eq a cells.length (by rw [hcl, hl])] at h
    dsimp only at h
    obtain rfl : { im with pix := (cells.zip a).foldl put im.pix } = im' := by injection h
    refine ⟨rfl, rfl, ?_⟩
    intro i j hi hj
    have hhit : ∀ (k : Nat) (p : ℚ × ℚ), c[k]? = some p →
        (Hit im.nx im.ny i j (p.1 - d.1, p.2 - d.2) ↔ cells[k]? = some (i, j)) := by
      intro k p hk
      have := hcell k (trunc (p.1 - d.1), trunc (p.2 - d.2)) (by rw [List.getElem?_map, hk]; rfl)
      rw [← this, cell_iff, wrap_iff, wrap_iff]
      unfold Hit AxisHit
      simp [hi, hj]
    rcases foldl_put (cells.zip a) im.pix i j with ⟨k, t, h1, h2, h3, h4⟩ | ⟨h1, h2⟩
    · left
      obtain ⟨hk1, hk2⟩ := List.getElem?_zip_eq_some.mp h1
      have hkc : k < c.length := by
        rw [← hcl]; exact (List.getElem?_eq_some_iff.mp hk1).1
      refine ⟨k, t.2, ⟨⟨c[k], List.getElem?_eq_getElem hkc, ?_⟩, ?_⟩, hk2, h4⟩
      · exact (hhit k c[k] (List.getElem?_eq_getElem hkc)).mpr (by rw [hk1, h2])
      · intro k' p' hlt hp' hH
        have hc' := (hhit k' p' hp').mp hH
        have hka : k' < a.length := by
          rw [hl]; exact (List.getElem?_eq_some_iff.mp hp').1
        exact h3 k' ((i, j), a[k']) hlt (List.getElem?_zip_eq_some.mpr ⟨hc', List.getElem?_eq_getElem hka⟩) rfl
    · right
      refine ⟨?_, h2⟩
      intro p hp hH
      obtain ⟨k, hk, rfl⟩ := List.getElem_of_mem hp
      have hc' := (hhit k c[k] (List.getElem?_eq_getElem hk)).mp hH
      have hka : k < a.length := by rw [hl]; exact hk
      exact h1 ((i, j), a[k]) (List.mem_of_getElem? (List.getElem?_zip_eq_some.mpr
        ⟨hc', List.getElem?_eq_getElem hka⟩)) rfl

/-- An assignment whose coordinates are all in range succeeds. -/
lemma assign_ok (im : Image V) (c : List (Int × Int)) (a : List V) (hl : a.length = c.length)
    (hx : ∀ p ∈ c, -(im.nx : Int) ≤ p.1 ∧ p.1 < im.nx) (hy : ∀ p ∈ c, -(im.ny : Int) ≤ p.2 ∧ p.2 < im.ny) :
    ∃ im', assign im c a = .ok im' := by
  have hw : ∀ (n : Nat) (z : Int), -(n : Int) ≤ z → z < n → ∃ i, wrap n z = some i := by
    intro n z h1 h2
    by_cases h0 : 0 ≤ z
    · exact ⟨z.toNat, (wrap_iff _ _ _).mpr ⟨by omega, by omega⟩⟩
    · exact ⟨(z + n).toNat, (wrap_iff _ _ _).mpr ⟨by omega, by omega⟩⟩
  have hm : ∃ cells, c.mapM (cell im.nx im.ny) = some cells := by
    clear hl
    induction c with
    | nil => exact ⟨[], rfl⟩
    | cons p c ih =>
      obtain ⟨cells, hc⟩ := ih (fun p hp => hx p (List.mem_cons_of_mem _ hp))
        (fun p hp => hy p (List.mem_cons_of_mem _ hp))
      obtain ⟨i, hi⟩ := hw im.nx p.1 (hx p (by simp)).1 (hx p (by simp)).2
      obtain ⟨j, hj⟩ := hw im.ny p.2 (hy p (by simp)).1 (hy p (by simp)).2
      refine ⟨(i, j) :: cells, ?_⟩
      rw [List.mapM_cons, (cell_iff _ _ _ _ _).mpr ⟨hi, hj⟩, hc]
      rfl
  obtain ⟨cells, hc⟩ := hm
  have hcl : cells.length = c.length := ((mapM_some_iff _ _ _).mp hc).1.symm
  unfold assign
  rw [hc]
  dsimp only
  rw [broadcast_eq a cells.length (by rw [hcl, hl])]
  exact ⟨_, rfl⟩

/-! ## C65 -/

/-- What the image of `e` is before its pixels are written. -/
def before (nan : V) (st : Fill V) (e : List String) (i j : Nat) : V :=
  ((st.images e).map fun im => im.pix i j).getD nan

/-- Every dataset has as many values as there are coordinates. -/
def Consistent (f : File V) (name : String) : Prop :=
  ∀ e c a, f.coords e = some c → f.dataset e name = some a → a.length = c.length

/-- Creating the image of an exposure: all other entries are unchanged, an image that is there is
kept, a new one is blank and has the shape of the header if there is one. -/
lemma create_spec (h : Headers) (nan : V) (e : List String) (st st' : Fill V)
    (hc : create h nan e st = .ok st') :
    (∀ e', e' ≠ e → st'.images e' = st.images e' ∧ st'.headers e' = st.headers e') ∧
    ∃ im, st'.images e = some im ∧ (∀ i j, im.pix i j = before nan st e i j) ∧
      (∀ old, st.images e = some old → im = old ∧ st' = st) ∧
      (st.images e = none → ∃ s, header h e = .ok s ∧ (im.nx, im.ny) = s.getD st.imshape ∧
        st'.imshape = s.getD st.imshape ∧ st'.headers e = (s.map some).getD (st.headers e)) := by
  unfold create at hc
  cases hi : st.images e with
  | some old =>
    rw [hi] at hc
    obtain rfl : st = st' := by injection hc
    refine ⟨fun _ _ => ⟨rfl, rfl⟩, old, hi, fun i j => by simp [before, hi], ?_, by simp⟩
    intro o ho
    exact ⟨by simpa using ho, rfl⟩
  | none =>
    rw [hi] at hc
    dsimp only at hc
    cases hh : header h e with
    | error x => rw [hh] at hc; simp at hc
    | ok s =>
      rw [hh] at hc
      dsimp only at hc
      injection hc with hc
      subst hc
      refine ⟨?_, blank nan (s.getD st.imshape), by simp, ?_, by simp, ?_⟩
      · intro e' he'
        refine ⟨by simp [Function.update_of_ne he'], ?_⟩
        cases s with
        | none => rfl
        | some s => simp [Function.update_of_ne he']
      · intro i j; simp [before, hi, blank]
      · intro _
        refine ⟨s, rfl, rfl, rfl, ?_⟩
        cases s with
        | none => rfl
        | some s => simp

lemma write_spec (f : File V) (name : String) (hf : Consistent f name) (e : List String) (st st' : Fill V)
    (hw : write f name e st = .ok st') :
    (∀ e', e' ≠ e → st'.images e' = st.images e') ∧ st'.headers = st.headers ∧ st'.imshape = st.imshape ∧
    ∃ c a im im', f.coords e = some c ∧ f.dataset e name = some a ∧ st.images e = some im ∧
      st'.images e = some im' ∧ im'.nx = im.nx ∧ im'.ny = im.ny ∧
      ∀ i j, i < im.nx → j < im.ny → PixelValue (Hit im.nx im.ny i j) c a (im.pix i j) (im'.pix i j) := by
  unfold write at hw
  cases hc : f.coords e with
  | none => rw [hc] at hw; simp at hw
  | some c =>
    cases ha : f.dataset e name with
    | none => rw [hc, ha] at hw; simp at hw
    | some a =>
      cases hi : st.images e with
      | none => rw [hc, ha, hi] at hw; simp at hw
      | some im =>
        rw [hc, ha, hi] at hw
        dsimp only at hw
        cases hx : assign im (c.map fun p => (trunc p.1, trunc p.2)) a with
        | error x => rw [hx] at hw; simp at hw
        | ok im' =>
          rw [hx] at hw
          dsimp only at hw
          injection hw with hw
          subst hw
          have := assign_spec im im' c (0, 0) a (hf e c a hc ha) (by simpa using hx)
          refine ⟨fun e' he' => by simp [Function.update_of_ne he'], rfl, rfl, c, a, im, im', rfl, rfl, rfl,
            by simp, this.1, this.2.1, ?_⟩
          intro i j hi hj
          simpa using this.2.2 i j hi hj

/-- **C65, what filling does.**  When no exception is raised, the images of exposures that are not in
the file are unchanged, and in the image of an exposure of the file every pixel has the value of the
last stored pixel that designates it, or, if there is none, the value it had (not-a-number in a new
image).  The shape of an image that was there is kept. -/
theorem C65_written (h : Headers) (nan : V) (f : File V) (name : String) (st st' : Fill V)
    (hd : f.exposures.Nodup) (hf : Consistent f name) (hr : fillImages h nan f name st = (st', none)) :
    (∀ e, e ∉ f.exposures → st'.images e = st.images e ∧ st'.headers e = st.headers e) ∧
    ∀ e ∈ f.exposures, ∃ im c a, f.coords e = some c ∧ f.dataset e name = some a ∧ st'.images e = some im ∧
      (∀ old, st.images e = some old → im.nx = old.nx ∧ im.ny = old.ny) ∧
      ∀ i j, i < im.nx → j < im.ny →
        PixelValue (Hit im.nx im.ny i j) c a (before nan st e i j) (im.pix i j) := by
  unfold fillImages at hr
  revert hd hr
  generalize f.exposures = es
  intro hd hr
  induction es generalizing st with
  | nil =>
    obtain rfl : st = st' := by simpa [fillLoop] using hr
    exact ⟨fun _ _ => ⟨rfl, rfl⟩, by simp⟩
  | cons e es ih =>
    rw [fillLoop] at hr
    cases hc : create h nan e st with
    | error x => rw [hc] at hr; simp at hr
    | ok st1 =>
      rw [hc] at hr
      dsimp only at hr
      cases hw : write f name e st1 with
      | error x => rw [hw] at hr; simp at hr
      | ok st2 =>
        rw [hw] at hr
        dsimp only at hr
        obtain ⟨hne, hnd⟩ := List.nodup_cons.mp hd
        obtain ⟨h1, h2⟩ := ih st2 hnd hr
        obtain ⟨c1, im1, c2, c3, c4, -⟩ := create_spec h nan e st st1 hc
        obtain ⟨w1, w2, -, c, a, im, im', w3, w4, w5, w6, w7, w8, w9⟩ := write_spec f name hf e st1 st2 hw
        obtain rfl : im1 = im := by rw [c2] at w5; simpa using w5
        refine ⟨?_, ?_⟩
        · intro e' he'
          have k1 : e' ≠ e := fun h => he' (h ▸ List.mem_cons_self)
          have k2 : e' ∉ es := fun h => he' (List.mem_cons_of_mem _ h)
          refine ⟨by rw [(h1 e' k2).1, w1 e' k1, (c1 e' k1).1], ?_⟩
          rw [(h1 e' k2).2, w2, (c1 e' k1).2]
        · intro e' he'
          rcases List.mem_cons.mp he' with rfl | he'
          · refine ⟨im', c, a, w3, w4, by rw [(h1 e' hne).1, w6], ?_, ?_⟩
            · intro old ho
              rw [w7, w8, (c4 old ho).1]
              exact ⟨rfl, rfl⟩
            · intro i j hi hj
              rw [w7] at hi ⊢
              rw [w8] at hj ⊢
              rw [← c3]
              exact w9 i j hi hj
          · have k1 : e' ≠ e := fun h => hne (h ▸ he')
            have k3 : st2.images e' = st.images e' := by rw [w1 e' k1, (c1 e' k1).1]
            obtain ⟨im2, c', a', h3, h4, h5, h6, h7⟩ := h2 e' he'
            refine ⟨im2, c', a', h3, h4, h5, fun old ho => h6 old (by rw [k3, ho]), ?_⟩
            intro i j hi hj
            have := h7 i j hi hj
            unfold before at this ⊢
            rw [k3] at this
            exact this

/-- A coordinate that is a natural number designates exactly its own pixel. -/
lemma hit_nat (nx ny i j : Nat) (a b : Nat) (ha : a < nx) (hb : b < ny) (hi : i < nx) (hj : j < ny) :
    Hit nx ny i j ((a : ℚ), (b : ℚ)) ↔ At i j ((a : ℚ), (b : ℚ)) := by
  unfold Hit AxisHit At
  simp only [trunc_natCast, Prod.mk.injEq, Nat.cast_inj]
  omega

/-- All stored pixels of an exposure are pixels of an image of the given shape. -/
def InRange (nx ny : Nat) (c : List (ℚ × ℚ)) : Prop :=
  ∀ p ∈ c, ∃ a b : Nat, a < nx ∧ b < ny ∧ p = ((a : ℚ), (b : ℚ))

lemma pixelValue_congr {P Q : ℚ × ℚ → Prop} {c : List (ℚ × ℚ)} {a : List V} {old now : V}
    (hpq : ∀ p ∈ c, (P p ↔ Q p)) (h : PixelValue P c a old now) : PixelValue Q c a old now := by
  rcases h with ⟨k, v, ⟨⟨p, h1, h2⟩, h3⟩, h4, h5⟩ | ⟨h1, h2⟩
  · refine Or.inl ⟨k, v, ⟨⟨p, h1, (hpq p (List.mem_of_getElem? h1)).mp h2⟩, ?_⟩, h4, h5⟩
    intro k' p' hk hp hq
    exact h3 k' p' hk hp ((hpq p' (List.mem_of_getElem? hp)).mpr hq)
  · exact Or.inr ⟨fun p hp hq => h1 p hp ((hpq p hp).mpr hq), h2⟩

/-- **C65 without padding.**  When the stored coordinates are pixels of the image, exactly the stored
pixels change: each gets the value stored (last) for it, every other pixel keeps its value. -/
theorem C65_exact_partial (h : Headers) (nan : V) (f : File V) (name : String) (st st' : Fill V)
    (hd : f.exposures.Nodup) (hf : Consistent f name) (hr : fillImages h nan f name st = (st', none))
    (e : List String) (he : e ∈ f.exposures) (im : Image V) (him : st'.images e = some im)
    (c : List (ℚ × ℚ)) (hc : f.coords e = some c) (hin : InRange im.nx im.ny c)
    (i j : Nat) (hi : i < im.nx) (hj : j < im.ny) :
    ∃ a, f.dataset e name = some a ∧ PixelValue (At i j) c a (before nan st e i j) (im.pix i j) := by
  obtain ⟨im', c', a, h1, h2, h3, -, h4⟩ := (C65_written h nan f name st st' hd hf hr).2 e he
  obtain rfl : im = im' := by rw [him] at h3; simpa using h3
  obtain rfl : c = c' := by rw [hc] at h1; simpa using h1
  refine ⟨a, h2, pixelValue_congr ?_ (h4 i j hi hj)⟩
  intro p hp
  obtain ⟨x, y, hx, hy, rfl⟩ := hin p hp
  exact hit_nat im.nx im.ny i j x y hx hy hi hj

/-- **C65, when filling succeeds.**  With a metadata store, well-formed exposure names and stored
pixels inside the images (existing images having the shape of the header) there is no exception, and
every image has the shape of its header. -/
theorem C65_succeeds (m : String → String → Option (Nat × Nat)) (disk : List String → Option (Nat × Nat))
    (nan : V) (f : File V) (name : String) (st : Fill V) (hd : f.exposures.Nodup)
    (hf : Consistent f name)
    (hok : ∀ e ∈ f.exposures, ∃ band exp nx ny c a, e = [band, exp] ∧ m band exp = some (nx, ny) ∧
      f.coords e = some c ∧ f.dataset e name = some a ∧ InRange nx ny c ∧
      ∀ im, st.images e = some im → im.nx = nx ∧ im.ny = ny) :
    ∃ st', fillImages ⟨some m, disk⟩ nan f name st = (st', none) ∧
      ∀ (band exp : String) (s : Nat × Nat), [band, exp] ∈ f.exposures → m band exp = some s →
        ∃ im, st'.images [band, exp] = some im ∧ (im.nx, im.ny) = s ∧
          (st.images [band, exp] = none → st'.headers [band, exp] = some s) := by
  have key : ∀ (es : List (List String)) (st : Fill V), es.Nodup →
      (∀ e ∈ es, ∃ band exp nx ny c a, e = [band, exp] ∧ m band exp = some (nx, ny) ∧
        f.coords e = some c ∧ f.dataset e name = some a ∧ InRange nx ny c ∧
        ∀ im, st.images e = some im → im.nx = nx ∧ im.ny = ny) →
      ∃ st', fillLoop ⟨some m, disk⟩ nan f name es st = (st', none) ∧
        (∀ e, e ∉ es → st'.images e = st.images e ∧ st'.headers e = st.headers e) ∧
        ∀ (band exp : String) (s : Nat × Nat), [band, exp] ∈ es → m band exp = some s →
          ∃ im, st'.images [band, exp] = some im ∧ (im.nx, im.ny) = s ∧
          (st.images [band, exp] = none → st'.headers [band, exp] = some s) := by
    intro es
    induction es with
    | nil => intro st _ _; exact ⟨st, rfl, fun _ _ => ⟨rfl, rfl⟩, by simp⟩
    | cons e es ih =>
      intro st hnd0 hok
      obtain ⟨hne, hnd⟩ := List.nodup_cons.mp hnd0
      obtain ⟨band, exp, nx, ny, c, a, rfl, hm, hc, ha, hin, hold⟩ := hok e (by simp)
      have hhead : header ⟨some m, disk⟩ [band, exp] = .ok (some (nx, ny)) := by
        unfold header; simp [hm]
      have hcr : ∃ st1, create ⟨some m, disk⟩ nan [band, exp] st = .ok st1 := by
        unfold create
        rw [hhead]
        cases st.images [band, exp] with
        | some im => exact ⟨_, rfl⟩
        | none => exact ⟨_, rfl⟩
      obtain ⟨st1, hcr⟩ := hcr
      obtain ⟨c1, im1, c2, -, c3, c4⟩ := create_spec _ nan _ st st1 hcr
      have hshape : im1.nx = nx ∧ im1.ny = ny := by
        cases hi : st.images [band, exp] with
        | some im => rw [(c3 im hi).1]; exact hold im hi
        | none =>
          obtain ⟨s, h1, h2, -, -⟩ := c4 hi
          rw [hhead] at h1
          obtain rfl : some (nx, ny) = s := by injection h1
          simpa using h2
      have has : ∃ im', assign im1 (c.map fun p => (trunc p.1, trunc p.2)) a = .ok im' := by
        refine assign_ok im1 _ a (by rw [List.length_map]; exact hf _ c a hc ha) ?_ ?_
        · intro p hp
          obtain ⟨q, hq, rfl⟩ := List.mem_map.mp hp
          obtain ⟨x, y, hx, hy, rfl⟩ := hin q hq
          rw [hshape.1]; simp only [trunc_natCast]; omega
        · intro p hp
          obtain ⟨q, hq, rfl⟩ := List.mem_map.mp hp
          obtain ⟨x, y, hx, hy, rfl⟩ := hin q hq
          rw [hshape.2]; simp only [trunc_natCast]; omega
      obtain ⟨im', has⟩ := has
      have hwr : ∃ st2, write f name [band, exp] st1 = .ok st2 := by
        unfold write
        rw [hc, ha, c2]
        dsimp only
        rw [has]
        exact ⟨_, rfl⟩
      obtain ⟨st2, hwr⟩ := hwr
      obtain ⟨w1, w2, -, c', a', im0, im2, -, -, w5, w6, w7, w8, -⟩ := write_spec f name hf _ st1 st2 hwr
      obtain rfl : im1 = im0 := by rw [c2] at w5; simpa using w5
      have hrest : ∀ e' ∈ es, st2.images e' = st.images e' := by
        intro e' he'
        have : e' ≠ [band, exp] := fun h => hne (h ▸ he')
        rw [w1 e' this, (c1 e' this).1]
      obtain ⟨st3, h1, h2, h3⟩ := ih st2 hnd (by
        intro e' he'
        obtain ⟨b', x', nx', ny', c'', a'', k1, k2, k3, k4, k5, k6⟩ := hok e' (List.mem_cons_of_mem _ he')
        exact ⟨b', x', nx', ny', c'', a'', k1, k2, k3, k4, k5, fun im hi => k6 im (by rw [← hrest e' he', hi])⟩)
      refine ⟨st3, ?_, ?_, ?_⟩
      · rw [fillLoop, hcr]
        dsimp only
        rw [hwr]
        exact h1
      · intro e' he'
        have k1 : e' ≠ [band, exp] := fun h => he' (h ▸ List.mem_cons_self)
        have k2 : e' ∉ es := fun h => he' (List.mem_cons_of_mem _ h)
        refine ⟨by rw [(h2 e' k2).1, w1 e' k1, (c1 e' k1).1], ?_⟩
        rw [(h2 e' k2).2, w2, (c1 e' k1).2]
      · intro b' x' s' hmem hs'
        rcases List.mem_cons.mp hmem with heq | hmem
        · obtain ⟨rfl, rfl⟩ : b' = band ∧ x' = exp := by simpa using heq
          obtain rfl : (nx, ny) = s' := by rw [hm] at hs'; simpa using hs'
          refine ⟨im2, by rw [(h2 _ hne).1, w6], by rw [w7, w8, hshape.1, hshape.2], ?_⟩
          intro hnone
          obtain ⟨s, k1, -, -, k4⟩ := c4 hnone
          rw [hhead] at k1
          obtain rfl : some (nx, ny) = s := by injection k1
          rw [(h2 _ hne).2, w2, k4]
          rfl
        · obtain ⟨im3, k1, k2, k3⟩ := h3 b' x' s' hmem hs'
          exact ⟨im3, k1, k2, fun hn => k3 (by rw [hrest _ hmem, hn])⟩
  obtain ⟨st', h1, -, h3⟩ := key f.exposures st hd hok
  exact ⟨st', h1, h3⟩

/-- **C65, padding.**  Whenever the last stored pixel of an exposure is padding (both coordinates -1)
the last pixel of the image is overwritten with the value of the padding. -/
theorem C65_padding (h : Headers) (nan : V) (f : File V) (name : String) (st st' : Fill V)
    (hd : f.exposures.Nodup) (hf : Consistent f name) (hr : fillImages h nan f name st = (st', none))
    (e : List String) (he : e ∈ f.exposures) (c : List (ℚ × ℚ)) (a : List V) (v : V)
    (hc : f.coords e = some (c ++ [(-1, -1)])) (ha : f.dataset e name = some (a ++ [v])) :
    ∃ im, st'.images e = some im ∧ (0 < im.nx → 0 < im.ny → im.pix (im.nx - 1) (im.ny - 1) = v) := by
  obtain ⟨im, c', a', h1, h2, h3, -, h4⟩ := (C65_written h nan f name st st' hd hf hr).2 e he
  obtain rfl : c ++ [(-1, -1)] = c' := by rw [hc] at h1; simpa using h1
  obtain rfl : a ++ [v] = a' := by rw [ha] at h2; simpa using h2
  refine ⟨im, h3, ?_⟩
  intro hx hy
  have hlen : a.length = c.length := by simpa using hf e _ _ hc ha
  have htr : trunc (-1) = -1 := by
    unfold trunc
    rw [if_neg (by norm_num)]
    have := Int.ceil_intCast (R := ℚ) (-1)
    simpa using this
  have hhit : Hit im.nx im.ny (im.nx - 1) (im.ny - 1) ((-1 : ℚ), (-1 : ℚ)) := by
    unfold Hit AxisHit
    simp only [htr]
    omega
  rcases h4 (im.nx - 1) (im.ny - 1) (by omega) (by omega) with ⟨k, w, ⟨⟨p, k1, -⟩, k2⟩, k3, k4⟩ | ⟨k1, -⟩
  · have hk : k = c.length := by
      have hk1 := (List.getElem?_eq_some_iff.mp k1).1
      rw [List.length_append, List.length_singleton] at hk1
      by_contra hne
      exact k2 c.length (-1, -1) (by omega) (by simp) hhit
    subst hk
    rw [k4, ← hlen] at *
    simpa using k3.symm
  · exact absurd hhit (k1 (-1, -1) (by simp))

/-- The claim of C65 in full: a pixel that no stored pixel has as its coordinates keeps its value. -/
def C65_claim : Prop :=
  ∀ (h : Headers) (f : File Int) (name : String) (st st' : Fill Int), f.exposures.Nodup →
    Consistent f name → fillImages h 0 f name st = (st', none) →
    ∀ e ∈ f.exposures, ∀ (im : Image Int) (c : List (ℚ × ℚ)), st'.images e = some im → f.coords e = some c →
    ∀ i j, i < im.nx → j < im.ny → (∀ p ∈ c, ¬ At i j p) → im.pix i j = before 0 st e i j

/-- One pixel and one padding pixel. -/
def paddedFile : File Int :=
  ⟨[["F", "a"]], fun e => if e = ["F", "a"] then some [(0, 0), (-1, -1)] else none,
    fun e n => if e = ["F", "a"] ∧ n = "data" then some [5, 7] else none⟩

/-- A store with one exposure of three by two pixels. -/
def oneHeader : Headers := ⟨some fun b x => if b = "F" ∧ x = "a" then some (3, 2) else none, fun _ => none⟩

/-- **C65 is false with padding.** -/
theorem C65_refuted : ¬ C65_claim := by
  intro hclaim
  have hcon : Consistent paddedFile "data" := by
    intro e c a hc ha
    unfold paddedFile at hc ha
    simp only at hc ha
    split at hc
    · split at ha
      · simp at hc ha; simp [← hc, ← ha]
      · simp at ha
    · simp at hc
  have hval : ∃ st' im, fillImages oneHeader 0 paddedFile "data" noImages = (st', none) ∧
      st'.images ["F", "a"] = some im ∧ im.nx = 3 ∧ im.ny = 2 ∧ im.pix 2 1 = 7 := by
    have ht : trunc (-1) = -1 := by decide +kernel
    have h0 : trunc 0 = 0 := by decide +kernel
    refine ⟨_, _, rfl, rfl, rfl, rfl, ?_⟩
    decide +kernel
  obtain ⟨st', im, hr, hi, hx, hy, hp⟩ := hval
  have := hclaim oneHeader paddedFile "data" noImages st' (by decide) hcon hr ["F", "a"] (by decide) im
    [(0, 0), (-1, -1)] hi (by decide) 2 1 (by omega) (by omega) (by
      intro p hp
      unfold At
      rcases List.mem_cons.mp hp with rfl | hp
      · norm_num
      · obtain rfl : p = (-1, -1) := by simpa using hp
        norm_num)
  rw [hp] at this
  simp [before, noImages] at this

end Forcepho.Postprocess
