import Verif.Layout.Props

/-! # Property C147, continued: sending, proposals, results, and what goes wrong -/

set_option autoImplicit false

namespace Forcepho.Layout

open Device (Name)

variable {pix met : Np} {m : Mem} {p : Nat} {addr : Name → Option Nat} {P : Attrs}

/-! ## Sending -/

/-- The ranges `[a, a + n)` and `[b, b + k)` have no byte in common. -/
def Apart (a n b k : Nat) : Prop := a + n ≤ b ∨ b + k ≤ a

lemma Apart.symm {a n b k : Nat} (h : Apart a n b k) : Apart b k a n := Or.symm h

/-- `send_to_device` (patches/device_patch.py:268-298, 449-481): every array of the dictionary is in memory, then the
structure is written. -/
def sendAll (pix met : Np) (m : Mem) (p : Nat) (addr : Name → Option Nat) (P : Attrs) : Mem :=
  store (((Device.names.filter Device.isPtr).filterMap fun n => (addr n).map fun a => (n, a)).foldl
    (fun m x => store m x.2 (attrBytes pix met P x.1)) m) p (structBytes addr pix met P)

lemma foldl_store_other (val : Name → List Byte) (l : List (Name × Nat)) (b k : Nat) : ∀ m : Mem,
    (∀ x ∈ l, Apart b k x.2 (val x.1).length) →
    load (l.foldl (fun m x => store m x.2 (val x.1)) m) b k = load m b k := by
  induction l with
  | nil => intro m _; rfl
  | cons x l ih =>
    intro m h
    rw [List.foldl_cons, ih _ fun y hy => h y (by simp [hy])]
    exact load_store_of_disjoint _ _ _ _ _ (h x (by simp))

lemma foldl_store_same (val : Name → List Byte) (l : List (Name × Nat)) : ∀ m : Mem,
    l.Pairwise (fun x y => Apart x.2 (val x.1).length y.2 (val y.1).length) → ∀ x ∈ l,
    load (l.foldl (fun m x => store m x.2 (val x.1)) m) x.2 (val x.1).length = val x.1 := by
  induction l with
  | nil => intro m _ x hx; simp at hx
  | cons y l ih =>
    intro m h x hx
    rw [List.pairwise_cons] at h
    rw [List.foldl_cons]
    rcases List.mem_cons.1 hx with rfl | hx
    · rw [foldl_store_other val l _ _ _ h.1, load_store]
    · exact ih _ h.2 x hx

lemma mem_ptrs (n : Name) (h : Device.isPtr n) : n ∈ Device.names.filter Device.isPtr := by
  cases n <;> first | decide | simp [Device.isPtr] at h

/-- Whatever was in memory: if the allocator hands out ranges that do not overlap, sending a patch leaves its
structure and all of its arrays in memory. -/
theorem C147_send (pix met : Np) (m : Mem) (p : Nat) (addr : Name → Option Nat) (P : Attrs)
    (hall : ∀ n, Device.isPtr n → n ≠ .residual → ∃ a, addr n = some a)
    (hsmall : ∀ n a, addr n = some a → a < 2 ^ 64)
    (hap : ∀ n n' a a', n ≠ n' → addr n = some a → addr n' = some a' →
      Apart a (attrBytes pix met P n).length a' (attrBytes pix met P n').length)
    (hstr : ∀ n a, addr n = some a →
      Apart p (structBytes addr pix met P).length a (attrBytes pix met P n).length) :
    Sent pix met (sendAll pix met m p addr P) p addr P := by
  refine ⟨load_store _ _ _, fun n a hn ha => ?_, hall, hsmall⟩
  rw [sendAll, load_store_of_disjoint _ _ _ _ _ (hstr n a ha).symm]
  have hmem : (n, a) ∈ ((Device.names.filter Device.isPtr).filterMap fun n => (addr n).map fun a => (n, a)) := by
    rw [List.mem_filterMap]
    exact ⟨n, mem_ptrs n hn, by simp [ha]⟩
  refine foldl_store_same (attrBytes pix met P) _ m ?_ (n, a) hmem
  have hnd : (Device.names.filter Device.isPtr).Nodup := by decide +kernel
  rw [List.pairwise_filterMap]
  refine hnd.imp ?_
  intro x y hxy u hu v hv
  rw [Option.map_eq_some_iff] at hu hv
  obtain ⟨ax, hax, rfl⟩ := hu
  obtain ⟨ay, hay, rfl⟩ := hv
  exact hap x y ax ay hxy hax hay

/-! ## Proposals -/

lemma flatMap_length {α β : Type} (f : α → List β) (w : Nat) (h : ∀ x, (f x).length = w) (l : List α) :
    (l.flatMap f).length = l.length * w := by
  induction l with
  | nil => simp
  | cons x l ih => simp [ih, h]; ring

lemma flatMap_sub {α β : Type} (f : α → List β) (w : Nat) (h : ∀ x, (f x).length = w) (l : List α) :
    ∀ (i : Nat) (x : α), l[i]? = some x → ((l.flatMap f).drop (i * w)).take w = f x ∧ i * w + w ≤ (l.flatMap f).length := by
  induction l with
  | nil => intro i x hx; simp at hx
  | cons y l ih =>
    intro i x hx
    cases i with
    | zero =>
      simp only [List.getElem?_cons_zero, Option.some.injEq] at hx
      subst hx
      rw [Nat.zero_mul, List.drop_zero, List.flatMap_cons, List.take_left' (h y), List.length_append, h y]
      exact ⟨rfl, by omega⟩
    | succ i =>
      obtain ⟨i1, i2⟩ := ih i x (by simpa using hx)
      constructor
      · rw [List.flatMap_cons, Nat.add_mul, one_mul, Nat.add_comm, ← List.drop_drop, List.drop_left' (h y), i1]
      · rw [List.flatMap_cons, List.length_append, h y, Nat.add_mul, one_mul]
        omega

lemma src_lengths (s : Src) : ∀ f ∈ npSource, (srcField s f.name).length = f.count * f.ty.size := by
  intro f hf
  simp only [npSource, List.mem_cons, List.not_mem_nil, or_false] at hf
  rcases hf with rfl | rfl | rfl | rfl | rfl | rfl | rfl | rfl | rfl | rfl <;>
    simp only [srcField, vecLen] <;>
    first
      | (rw [arrBytes_length _ _ 4 (fun _ => toLE_length _ _)]; simp [Np.size, Nat.mul_comm])
      | (rw [toLE_length]; rfl)

lemma src_offset (f : SrcField) : (f, cOffset cSource f) ∈ npOffsets true 0 npSource := by
  cases f <;> decide +kernel

/-- The kernels find every parameter of every source of a proposal. -/
theorem C147_proposal (l : List Src) (q : Nat) (hm : load m q (proposalBytes l).length = proposalBytes l)
    (g : Nat) (s : Src) (hs : l[g]? = some s) (hsc : ∀ f, s.scalar f < 2 ^ 32) (hv : ∀ f i, s.vec f i < 2 ^ 32) :
    kSrc m q g .ra = s.scalar .ra ∧ kSrc m q g .dec = s.scalar .dec ∧ kSrc m q g .q = s.scalar .q ∧
    kSrc m q g .pa = s.scalar .pa ∧ kSrc m q g .nsersic = s.scalar .nsersic ∧ kSrc m q g .rh = s.scalar .rh ∧
    (∀ b : Nat, b < 30 → kSrcVec m q g .fluxes b = s.vec .fluxes b) ∧
    ∀ i : Nat, i < 10 → kSrcVec m q g .mixture_amplitudes i = s.vec .mixture_amplitudes i ∧
      kSrcVec m q g .damplitude_drh i = s.vec .damplitude_drh i ∧
      kSrcVec m q g .damplitude_dnsersic i = s.vec .damplitude_dnsersic i := by
  have hitem : npItemsize true npSource = 264 := by decide +kernel
  have hsize : cSizeof cSource = 264 := by decide +kernel
  have hrec := fun s => record_field true npSource (srcField s) (src_lengths s)
  obtain ⟨h1, h2⟩ := flatMap_sub (fun s => recordBytes true npSource (srcField s)) 264
    (fun s => by rw [(hrec s).1, hitem]) l g s hs
  have h0 : load m (q + g * 264) 264 = recordBytes true npSource (srcField s) := by
    rw [part m q _ hm _ _ h2]; exact h1
  have hfield : ∀ f v, srcField s f = v → load m (q + 264 * g + cOffset cSource f) v.length = v := by
    rintro f v rfl
    obtain ⟨r1, r2⟩ := (hrec s).2 _ (src_offset f)
    rw [hitem] at r2
    rw [Nat.mul_comm 264 g, load_sub m (q + g * 264) 264 _ _ r2, h0]
    exact r1
  have hscal : ∀ f, vecLen f = none → kSrc m q g f = s.scalar f := by
    intro f hf
    have := hfield f (toLE 4 (s.scalar f)) (by simp [srcField, hf])
    rw [toLE_length] at this
    rw [kSrc, rdFloat, hsize, elem_nat, this, ofLE_toLE _ _ (by simpa using hsc f)]
  have hvec : ∀ f n, vecLen f = some n → ∀ i < n, kSrcVec m q g f i = s.vec f i := by
    intro f n hf i hi
    have := hfield f (arrBytes [n] fun i => toLE 4 (s.vec f (i.headD 0))) (by simp [srcField, hf])
    obtain ⟨a1, a2⟩ := arrBytes_sub 4 [n] [i] (fun i => toLE 4 (s.vec f (i.headD 0))) (fun _ => toLE_length _ _)
      (one i n hi)
    have ea : npAddress 4 [n] [i] = 4 * i := by simp [npAddress, Nat.mul_comm]
    rw [ea] at a1 a2
    rw [kSrcVec, rdFloat, hsize, elem_nat, elem_nat, part m _ _ this _ _ a2, a1]
    exact ofLE_toLE _ _ (by simpa using hv f i)
  exact ⟨hscal _ rfl, hscal _ rfl, hscal _ rfl, hscal _ rfl, hscal _ rfl, hscal _ rfl,
    fun b hb => hvec .fluxes 30 rfl b hb, fun i hi => ⟨hvec _ 10 rfl i hi, hvec _ 10 rfl i hi, hvec _ 10 rfl i hi⟩⟩

/-! ## Residuals -/

lemma structBytes_congr (addr : Name → Option Nat) (pix met : Np) (P P' : Attrs) (h1 : P.nSrc = P'.nSrc)
    (h2 : P.nRad = P'.nRad) : structBytes addr pix met P = structBytes addr pix met P' := by
  unfold structBytes
  congr 1
  funext n
  split
  · rfl
  · rename_i hn
    cases n <;> simp [Device.isPtr] at hn <;> simp [attrBytes, h1, h2]

/-- Without a residual buffer nothing is written. -/
theorem C147_no_residual (h : Sent pix met m p addr P) (hr : addr .residual = none) (i : Int) (v : Nat) :
    kResidual m p i v = m := by
  rw [kResidual, h.ptr .residual rfl, hr]
  simp

/-- A field after a changed one keeps its bytes. -/
lemma setAt_after (bs v : List Byte) (o o' : Nat) (h : o + v.length ≤ bs.length) (h' : o + v.length ≤ o') :
    (setAt bs o v).drop o' = bs.drop o' := by
  have e : (bs.take o ++ v).length = o + v.length := by simp; omega
  obtain ⟨d, rfl⟩ := Nat.exists_eq_add_of_le h'
  rw [setAt, ← List.drop_drop, List.drop_left' e, List.drop_drop]

lemma load_store_inside (m : Mem) (a n o : Nat) (v : List Byte) (h : o + v.length ≤ n) :
    load (store m (a + o) v) a n = setAt (load m a n) o v := by
  apply List.ext_getElem?
  intro i
  by_cases hi : i < n
  · rw [load_get _ _ _ _ hi, setAt]
    unfold store
    by_cases h1 : i < o
    · rw [if_neg (by omega), List.append_assoc, List.getElem?_append_left (by simp [load_length]; omega),
        List.getElem?_take_of_lt h1, load_get _ _ _ _ hi]
    · by_cases h2 : i < o + v.length
      · rw [if_pos (by omega), List.append_assoc, List.getElem?_append_right (by simp; omega),
          List.getElem?_append_left (by simp [load_length]; omega)]
        have e1 : a + i - (a + o) = i - o := by omega
        have e2 : i - (List.take o (load m a n)).length = i - o := by simp [load_length]; omega
        rw [e1, e2, List.getElem?_eq_getElem (by omega)]
        rfl
      · rw [if_pos (by omega), List.getElem?_append_right (by simp [load_length]; omega)]
        rw [List.getElem?_drop]
        have e2 : o + v.length + (i - (List.take o (load m a n) ++ v).length) = i := by simp [load_length]; omega
        rw [e2, load_get _ _ _ _ hi, List.getElem?_eq_none (by omega)]
        rfl
  · rw [List.getElem?_eq_none (by rw [load_length]; omega), List.getElem?_eq_none]
    rw [setAt_length _ _ _ (by rw [load_length]; exact h), load_length]
    omega

/-- Changing one entry of a one-dimensional array. -/
lemma arrBytes_update (n w k : Nat) (f : Nat → List Byte) (v : List Byte) (hf : ∀ i, (f i).length = w)
    (hv : v.length = w) (hk : k < n) :
    setAt (arrBytes [n] fun i => f (i.headD 0)) (w * k) v =
      arrBytes [n] fun i => if i.headD 0 = k then v else f (i.headD 0) := by
  have hg : ∀ i, (if i = k then v else f i).length = w := by intro i; split <;> simp [hv, hf]
  have hL : ∀ g : Nat → List Byte, (∀ i, (g i).length = w) →
      (arrBytes [n] fun i => g (i.headD 0)).length = w * n := by
    intro g hg
    rw [arrBytes_length _ _ w fun l => hg _]
    simp
  have hkn : w * k + w ≤ w * n := by rw [← Nat.mul_succ]; exact Nat.mul_le_mul_left _ hk
  -- both lists are the concatenation of their `n` pieces
  have pieces : ∀ A : List Byte, A.length = w * n → ∀ B : List Byte, B.length = w * n →
      (∀ i < n, (A.drop (w * i)).take w = (B.drop (w * i)).take w) → A = B := by
    intro A hA B hB h
    apply List.ext_getElem?
    intro j
    by_cases hj : j < w * n
    · have hw : 0 < w := by
        rcases Nat.eq_zero_or_pos w with h0 | h0
        · subst h0; simp at hj
        · exact h0
      have hd := Nat.div_add_mod j w
      have hm := Nat.mod_lt j hw
      have hq : j / w < n := (Nat.div_lt_iff_lt_mul hw).2 (by rw [Nat.mul_comm]; exact hj)
      have := congrArg (fun l : List Byte => l[j % w]?) (h _ hq)
      simp only [List.getElem?_take_of_lt hm, List.getElem?_drop, hd] at this
      exact this
    · rw [List.getElem?_eq_none (by omega), List.getElem?_eq_none (by omega)]
  have hbase := hL f hf
  refine pieces _ (by rw [setAt_length _ _ _ (by rw [hbase, hv]; exact hkn), hbase]) _
    (hL (fun i => if i = k then v else f i) hg) fun i hi => ?_
  have ea : npAddress w [n] [i] = w * i := by simp [npAddress, Nat.mul_comm]
  have r1 := (arrBytes_sub w [n] [i] (fun i => if i.headD 0 = k then v else f (i.headD 0)) (fun l => hg _)
    (one i n hi)).1
  have r2 := (arrBytes_sub w [n] [i] (fun i => f (i.headD 0)) (fun l => hf _) (one i n hi)).1
  rw [ea] at r1 r2
  rw [r1]
  by_cases hik : i = k
  · subst hik
    have := setAt_same (arrBytes [n] fun i => f (i.headD 0)) v (w * i) (by rw [hbase, hv]; exact hkn)
    rw [hv] at this
    rw [this]
    simp
  · rw [if_neg (by simpa using hik)]
    simp only [List.headD_cons] at r2 ⊢
    rcases Nat.lt_or_gt_of_ne hik with h | h
    · rw [setAt_before _ _ _ _ _ (by rw [hbase, hv]; exact hkn) (by nlinarith)]
      exact r2
    · rw [setAt_after _ _ _ _ (by rw [hbase, hv]; exact hkn) (by rw [hv]; nlinarith)]
      exact r2

lemma residual_bytes (met : Np) (Q : Attrs) :
    attrBytes .float32 met Q .residual = arrBytes [Q.npix] fun i => toLE 4 (Q.pix .residual (i.headD 0)) := rfl

/-- The kernels write a residual at a pixel: exactly that entry of the residual array changes; everything
else the patch holds is intact. -/
theorem C147_residual_partial (h : Sent .float32 met m p addr P) (r : Nat) (hr : addr .residual = some r) (h0 : r ≠ 0)
    (hap : ∀ n a, n ≠ .residual → addr n = some a → Apart r (4 * P.npix) a (attrBytes .float32 met P n).length)
    (hstr : Apart r (4 * P.npix) p (structBytes addr .float32 met P).length)
    (i v : Nat) (hi : i < P.npix) :
    Sent .float32 met (kResidual m p i v) p addr
      { P with pix := fun n j => if n = .residual ∧ j = i then v else P.pix n j } := by
  have hk : kResidual m p i v = store m (r + 4 * i) (toLE 4 v) := by
    rw [kResidual, h.ptr .residual rfl, hr, Option.getD_some, if_neg h0, elem_nat]
  have hin : r + 4 * i + (toLE 4 v).length ≤ r + 4 * P.npix := by rw [toLE_length]; omega
  have hdis : ∀ b k, Apart r (4 * P.npix) b k → b + k ≤ r + 4 * i ∨ r + 4 * i + (toLE 4 v).length ≤ b := by
    intro b k hb
    rcases hb with hb | hb
    · right; omega
    · left; omega
  have hsame : ∀ n, n ≠ .residual → attrBytes .float32 met
      { P with pix := fun n j => if n = .residual ∧ j = i then v else P.pix n j } n = attrBytes .float32 met P n := by
    intro n hn
    cases n <;> simp [attrBytes] at hn ⊢
  have hs := structBytes_congr addr .float32 met
    { P with pix := fun n j => if n = .residual ∧ j = i then v else P.pix n j } P rfl rfl
  rw [hk]
  refine ⟨?_, fun n a hn ha => ?_, h.all, h.small⟩
  · rw [hs, load_store_of_disjoint _ _ _ _ _ (hdis _ _ hstr)]
    exact h.record
  · by_cases hnr : n = .residual
    · subst hnr
      rw [hr, Option.some.injEq] at ha
      subst ha
      have hold := h.arrays .residual r rfl hr
      have hlen : ∀ Q : Attrs, (attrBytes .float32 met Q .residual).length = 4 * Q.npix := by
        intro Q
        rw [residual_bytes, arrBytes_length _ _ 4 (fun i => toLE_length 4 (Q.pix .residual (i.headD 0)))]
        simp
      rw [hlen, residual_bytes] at hold
      rw [hlen, residual_bytes]
      have hu := arrBytes_update P.npix 4 i (fun j => toLE 4 (P.pix .residual j)) (toLE 4 v)
        (fun _ => toLE_length _ _) (toLE_length _ _) hi
      refine (load_store_inside m r (4 * P.npix) (4 * i) (toLE 4 v) (by rw [toLE_length]; omega)).trans ?_
      rw [hold, hu]
      have hfun : (fun l : List Nat => if l.headD 0 = i then toLE 4 v else toLE 4 (P.pix .residual (l.headD 0))) =
          fun l => toLE 4 (if Name.residual = .residual ∧ l.headD 0 = i then v else P.pix .residual (l.headD 0)) := by
        funext l
        generalize l.headD 0 = k
        by_cases hk : k = i <;> simp [hk]
      rw [hfun]
    · rw [hsame n hnr, load_store_of_disjoint _ _ _ _ _ (hdis _ _ (hap n a hnr ha))]
      exact h.arrays n a hn ha

/-- What Python retrieves from the residual array. -/
theorem C147_retrieve_partial (h : Sent .float32 met m p addr P) (r : Nat) (hr : addr .residual = some r) (i : Nat)
    (hi : i < P.npix) (hv : P.pix .residual i < 2 ^ 32) :
    npEntry m r 4 [P.npix] [i] = P.pix .residual i := by
  obtain ⟨a1, a2⟩ := arrBytes_sub 4 [P.npix] [i] (fun i => toLE 4 (P.pix .residual (i.headD 0)))
    (fun _ => toLE_length _ _) (one i _ hi)
  have := h.arrays .residual r rfl hr
  rw [npEntry, part m r _ this _ _ a2]
  refine (congrArg ofLE a1).trans (ofLE_toLE _ _ ?_)
  simpa using hv

/-! ## Results -/

/-- A derivative of the GPU kernel is found by Python at its band, source and parameter, and nothing else of the
result changes. -/
theorem C147_derivative (r nb : Nat) (b g j : Nat) (hg : g < 30) (hj : j < 7) (v : Nat)
    (hv : v < 2 ^ 32) :
    npEntry (kDeriv m r b ((g * 7 + j : Nat) : Int) v) r 4 [nb, 30, 7] [b, g, j] = v ∧
    ∀ b' g' j' : Nat, g' < 30 → j' < 7 → (b', g', j') ≠ (b, g, j) →
      npEntry (kDeriv m r b ((g * 7 + j : Nat) : Int) v) r 4 [nb, 30, 7] [b', g', j'] =
        npEntry m r 4 [nb, 30, 7] [b', g', j'] := by
  have hs : cSizeof cResponse = 840 := by decide +kernel
  have e1 : npAddress 4 [nb, 30, 7] [b, g, j] = 840 * b + 4 * (g * 7 + j) := by simp [npAddress]; ring
  refine ⟨?_, fun b' g' j' hg' hj' hne => ?_⟩
  · rw [npEntry, kDeriv, hs, elem_nat, elem_nat, e1, Nat.add_assoc]
    have := load_store m (r + (840 * b + 4 * (g * 7 + j))) (toLE 4 v)
    rw [toLE_length] at this
    rw [this, ofLE_toLE _ _ (by simpa using hv)]
  · have e2 : npAddress 4 [nb, 30, 7] [b', g', j'] = 840 * b' + 4 * (g' * 7 + j') := by simp [npAddress]; ring
    rw [npEntry, npEntry, kDeriv, hs, elem_nat, elem_nat, e2, Nat.add_assoc,
      load_store_of_disjoint]
    rw [toLE_length]
    by_contra hc
    push Not at hc
    apply hne
    have h1 : g * 7 + j < 210 := by omega
    have h2 : g' * 7 + j' < 210 := by omega
    have hb : b' = b := by omega
    subst hb
    have : g' = g := by omega
    subst this
    have : j' = j := by omega
    subst this
    rfl

/-- The same for the array that the CPU kernel returns for one band. -/
theorem C147_derivative_cpu (r : Nat) (g j : Nat) (hj : j < 7) (v : Nat) (hv : v < 2 ^ 32) :
    npEntry (kDerivCpu m r g j v) r 4 [30, 7] [g, j] = v ∧
    ∀ g' j' : Nat, j' < 7 → (g', j') ≠ (g, j) →
      npEntry (kDerivCpu m r g j v) r 4 [30, 7] [g', j'] = npEntry m r 4 [30, 7] [g', j'] := by
  have en : nParams = 7 := rfl
  have ei : ((g : Int) * (nParams : Nat) + j) = ((g * 7 + j : Nat) : Int) := by rw [en]; push_cast; ring
  have e1 : ∀ g j : Nat, npAddress 4 [30, 7] [g, j] = 4 * (g * 7 + j) := by intro g j; simp [npAddress]; ring
  refine ⟨?_, fun g' j' hj' hne => ?_⟩
  · rw [npEntry, kDerivCpu, ei, elem_nat, e1]
    have := load_store m (r + 4 * (g * 7 + j)) (toLE 4 v)
    rw [toLE_length] at this
    rw [this, ofLE_toLE _ _ (by simpa using hv)]
  · rw [npEntry, npEntry, kDerivCpu, ei, elem_nat, e1, load_store_of_disjoint]
    rw [toLE_length]
    by_contra hc
    push Not at hc
    apply hne
    have : g' = g := by omega
    subst this
    have : j' = j := by omega
    subst this
    rfl

/-- The same for the chi-square of a band. -/
theorem C147_chi2 (c nb : Nat) (b : Nat) (v : Nat) (hv : v < 2 ^ 64) :
    npEntry (kChi2 m c b v) c 8 [nb] [b] = v ∧
    ∀ b' : Nat, b' ≠ b → npEntry (kChi2 m c b v) c 8 [nb] [b'] = npEntry m c 8 [nb] [b'] := by
  refine ⟨?_, fun b' hne => ?_⟩
  · rw [npEntry, kChi2, elem_nat, show npAddress 8 [nb] [b] = 8 * b by simp [npAddress, Nat.mul_comm]]
    have := load_store m (c + 8 * b) (toLE 8 v)
    rw [toLE_length] at this
    rw [this, ofLE_toLE _ _ (by simpa using hv)]
  · rw [npEntry, npEntry, kChi2, elem_nat, show npAddress 8 [nb] [b'] = 8 * b' by simp [npAddress, Nat.mul_comm],
      load_store_of_disjoint]
    rw [toLE_length]
    omega

/-! ## What goes wrong -/

/-- A patch made with `pix_dtype=np.float64`: the kernels read halves of numbers, and pixel `i` comes
from element `i/2`. -/
theorem C147_double_refuted (h : Sent .float64 met m p addr P) (hv : ∀ i, P.pix .data i < 2 ^ 64) (i : Nat)
    (hi : i < P.npix) :
    kPix m p .data (2 * i : Nat) = P.pix .data i % 2 ^ 32 ∧
    kPix m p .data (2 * i + 1 : Nat) = P.pix .data i / 2 ^ 32 := by
  have h8 := h.entry .data rfl (by decide) 8 [P.npix] [i] (fun i => toLE 8 (P.pix .data (i.headD 0)))
    (fun l => toLE_length _ _) rfl (one i _ hi) (8 * i) (by simp [npAddress, Nat.mul_comm])
  simp only [List.headD_cons] at h8
  have split : ∀ v, v < 2 ^ 64 → ofLE ((toLE 8 v).take 4) = v % 2 ^ 32 ∧ ofLE ((toLE 8 v).drop 4) = v / 2 ^ 32 := by
    intro v hv
    have e : toLE 8 v = toLE 4 v ++ toLE 4 (v / 2 ^ 32) := by
      simp only [toLE, List.cons_append, List.nil_append, Nat.div_div_eq_div_mul]
      norm_num
    have e4 : toLE 4 v = toLE 4 (v % 2 ^ 32) := by
      simp only [toLE, List.cons.injEq, Fin.mk.injEq, and_true]
      omega
    rw [e, List.take_left' (toLE_length _ _), List.drop_left' (toLE_length _ _)]
    constructor
    · rw [e4]
      exact ofLE_toLE _ _ (by norm_num; omega)
    · exact ofLE_toLE _ _ (by norm_num at hv ⊢; omega)
  obtain ⟨s1, s2⟩ := split _ (hv i)
  constructor
  · rw [kPix, rdFloat, elem_nat, show 4 * (2 * i) = 8 * i by ring]
    have := load_sub m (kPtr m p .data + 8 * i) 8 0 4 (by decide)
    rw [Nat.add_zero, h8, List.drop_zero] at this
    rw [this, s1]
  · rw [kPix, rdFloat, elem_nat, show 4 * (2 * i + 1) = 8 * i + 4 by ring, ← Nat.add_assoc]
    have := load_sub m (kPtr m p .data + 8 * i) 8 4 4 (by decide)
    rw [h8] at this
    rw [this, List.take_of_length_le (by simp [toLE_length]), s2]

/-- A band whose exposures start at number 32768 starts at -32768 for the kernels. -/
theorem C147_exposures_refuted (h : Sent pix met m p addr P) (b : Nat) (hb : b < P.nBands)
    (hs : P.band .band_start b = 32768) : kBand m p .band_start b = -32768 := by
  have := h.entry .band_start rfl (by decide) 2 [P.nBands] [b] (fun i => toInt 2 (P.band .band_start (i.headD 0)))
    (fun l => toInt_length _ _) rfl (one b _ hb) (2 * b) (by simp [npAddress, Nat.mul_comm])
  rw [kBand, rdInt16, elem_nat, this]
  simp only [List.headD_cons, hs]
  decide +kernel

/-! ## A case -/

/-- Two bands, three exposures, two sources; every number different. -/
def exPatch : Attrs where
  npix := 4
  nBands := 2
  nExp := 3
  nSrc := 2
  nRad := 2
  nGauss := 5
  pix := fun n i => 1000 * Device.names.idxOf n + i
  expo := fun n i => if n = .exposure_N then 1 else i
  band := fun n i => if n = .band_N then 1 + i else i
  rad2 := fun i => 7 + i
  mat := fun n e g i j => 1000 * Device.names.idxOf n + 8 * e + 4 * g + 2 * i + j
  vec := fun n e g i => 1000 * Device.names.idxOf n + 4 * e + 2 * g + i
  G := fun i => 50 + i
  nPsf := fun i => 1 + i
  psf := fun i f => 10 * i + cOffset cPsf f
  bin := fun i => i
  psfStart := fun i => 2 * i

/-- Addresses with a gap after every array. -/
def exAddr (n : Name) : Option Nat := some (1000 * (Device.names.idxOf n + 1))

/-- A patch in memory, with what the kernels read from it. -/
theorem C147_witness : ∃ m : Mem, Sent .float32 .float32 m 100 exAddr exPatch ∧
    kPix m 100 .ierr 3 = 1003 ∧ kBand m 100 .band_N 1 = 2 ∧
    kMat m 100 .D 2 1 = (12020, 12021, 12022, 12023) ∧ kVec m 100 .crval 1 0 1 = 14005 ∧
    kPsf m 100 4 .Cxx = 52 ∧ kBin m 100 4 = 4 := by
  have hap : ∀ n ∈ Device.names, ∀ n' ∈ Device.names, n ≠ n' →
      (1000 * (Device.names.idxOf n + 1) + (attrBytes .float32 .float32 exPatch n).length ≤
        1000 * (Device.names.idxOf n' + 1) ∨
      1000 * (Device.names.idxOf n' + 1) + (attrBytes .float32 .float32 exPatch n').length ≤
        1000 * (Device.names.idxOf n + 1)) := by decide +kernel
  have hall : ∀ n : Name, n ∈ Device.names := by intro n; cases n <;> decide
  have hlt : ∀ n ∈ Device.names, 1000 * (Device.names.idxOf n + 1) < 2 ^ 64 ∧
      252 ≤ 1000 * (Device.names.idxOf n + 1) := by decide +kernel
  have hsl : (structBytes exAddr .float32 .float32 exPatch).length = 152 := by decide +kernel
  refine ⟨sendAll .float32 .float32 (fun _ => 0) 100 exAddr exPatch, ?_, ?_⟩
  · refine C147_send _ _ _ _ _ _ (fun n _ _ => ⟨_, rfl⟩) ?_ ?_ ?_
    · intro n a ha
      rw [exAddr, Option.some.injEq] at ha
      rw [← ha]
      exact (hlt n (hall n)).1
    · intro n n' a a' hne ha ha'
      rw [exAddr, Option.some.injEq] at ha ha'
      rw [← ha, ← ha']
      exact hap n (hall n) n' (hall n') hne
    · intro n a ha
      rw [exAddr, Option.some.injEq] at ha
      left
      rw [hsl, ← ha]
      exact (hlt n (hall n)).2
  · refine ⟨?_, ?_, ?_, ?_, ?_, ?_⟩ <;> decide +kernel

end Forcepho.Layout
