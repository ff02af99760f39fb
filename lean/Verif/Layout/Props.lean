import Verif.Layout.Bytes

/-! # Property C147: the kernels read what Python packed, and Python reads what the kernels computed -/

set_option autoImplicit false

namespace Forcepho.Layout

open Device (Name)

/-! ## Layouts -/

section
variable {ν : Type}

/-- The C rules: the first member is at zero; every other member starts at the least multiple of its alignment that
is not inside its predecessor.  Scalars have the sizes of the usual 64-bit platforms and an empty structure has one
byte. -/
theorem C147_abi (l : List (Member ν CTy)) :
    (CTy.int16.size = 2 ∧ CTy.int.size = 4 ∧ CTy.float.size = 4 ∧ CTy.double.size = 8 ∧ (∀ t, (CTy.ptr t).size = 8) ∧
      cSizeof ([] : List (Member ν CTy)) = 1) ∧
    cOffsetAt l 0 = 0 ∧
    ∀ (i : Nat) (f g : Member ν CTy), l[i]? = some f → l[i + 1]? = some g →
      g.ty.size ∣ cOffsetAt l (i + 1) ∧
      cOffsetAt l i + f.count * f.ty.size ≤ cOffsetAt l (i + 1) ∧
      ∀ k, g.ty.size ∣ k → cOffsetAt l i + f.count * f.ty.size ≤ k → cOffsetAt l (i + 1) ≤ k := by
  refine ⟨⟨rfl, rfl, rfl, rfl, fun _ => rfl, rfl⟩, rfl, fun i f g hf hg => ?_⟩
  rw [show cOffsetAt l (i + 1) = roundUp (cOffsetAt l i + f.count * f.ty.size) g.ty.size by
    rw [cOffsetAt]; simp only [hf, hg]]
  exact ⟨roundUp_dvd _ _, roundUp_ge _ _ g.ty.size_pos, fun k hk h => roundUp_least _ _ _ g.ty.size_pos hk h⟩

/-- `sizeof` is the least multiple of every alignment that holds the last member. -/
theorem C147_sizeof (l : List (Member ν CTy)) (f : Member ν CTy) (hf : l[l.length - 1]? = some f) :
    let a := (l.map (·.ty.size)).foldr max 1
    a ∣ cSizeof l ∧ cOffsetAt l (l.length - 1) + f.count * f.ty.size ≤ cSizeof l ∧
    ∀ k, a ∣ k → cOffsetAt l (l.length - 1) + f.count * f.ty.size ≤ k → cSizeof l ≤ k := by
  intro a
  have ha : 0 < a := by
    have : ∀ l : List Nat, 0 < l.foldr max 1 := by
      intro l
      induction l with
      | nil => simp
      | cons x l ih => rw [List.foldr_cons]; omega
    exact this _
  rw [show cSizeof l = roundUp (cOffsetAt l (l.length - 1) + f.count * f.ty.size) a by
    rw [cSizeof]; simp only [hf]; rfl]
  exact ⟨roundUp_dvd _ _, roundUp_ge _ _ ha, fun k hk h => roundUp_least _ _ _ ha hk h⟩

/-- Same names, sizes and numbers of elements. -/
abbrev Same (l : List (Member ν Np)) (c : List (Member ν CTy)) : Prop :=
  l.map (fun f => (f.name, f.ty.size, f.count)) = c.map (fun f => (f.name, f.ty.size, f.count))

lemma Same.cons_left {f : Member ν Np} {l : List (Member ν Np)} {c : List (Member ν CTy)} {i : Nat}
    (h : Same (f :: l) (c.drop i)) :
    ∃ g, c[i]? = some g ∧ f.name = g.name ∧ f.ty.size = g.ty.size ∧ f.count = g.count ∧ Same l (c.drop (i + 1)) := by
  unfold Same at h ⊢
  cases hc : c.drop i with
  | nil => rw [hc] at h; simp at h
  | cons g c' =>
    rw [hc] at h
    simp only [List.map_cons, List.cons.injEq, Prod.mk.injEq] at h
    have e : c[i]? = some g := by
      have := List.getElem?_drop (xs := c) (i := i) (j := 0)
      rw [hc] at this
      simpa using this.symm
    refine ⟨g, e, h.1.1, h.1.2.1, h.1.2.2, ?_⟩
    rw [h.2, ← List.drop_drop, hc]
    rfl

lemma offsets_aux (c : List (Member ν CTy)) (l : List (Member ν Np)) : ∀ (i n : Nat), Same l (c.drop i) →
    (∀ g, c[i]? = some g → roundUp n g.ty.size = cOffsetAt c i) →
    (∀ j, (npOffsets true n l)[j]? = (c[i + j]?).map fun g => (g.name, cOffsetAt c (i + j))) ∧
    (l ≠ [] → ∃ g, c[i + l.length - 1]? = some g ∧
      npEnd true n l = cOffsetAt c (i + l.length - 1) + g.count * g.ty.size) := by
  induction l with
  | nil =>
    intro i n h _
    refine ⟨fun j => ?_, fun h => (h rfl).elim⟩
    have hc : c.length ≤ i := by
      have := congrArg List.length h
      simp only [List.map_nil, List.length_nil, List.length_map, List.length_drop] at this
      omega
    rw [List.getElem?_eq_none (l := c) (by omega)]
    rfl
  | cons f l ih =>
    intro i n h hn
    obtain ⟨g, hg, e1, e2, e3, hs⟩ := h.cons_left
    have hr := hn g hg
    have step : ∀ g', c[i + 1]? = some g' →
        roundUp (roundUp n f.ty.size + f.count * f.ty.size) g'.ty.size = cOffsetAt c (i + 1) := by
      intro g' hg'
      rw [cOffsetAt]
      simp only [hg, hg']
      rw [e2, e3, hr]
    obtain ⟨i1, i2⟩ := ih (i + 1) _ hs step
    constructor
    · intro j
      cases j with
      | zero => simp [npOffsets, hg, e1, e2, hr]
      | succ j =>
        have := i1 j
        rw [show i + (j + 1) = i + 1 + j by omega, ← this]
        simp [npOffsets]
    · intro _
      rw [npEnd]
      simp only [if_true]
      cases l with
      | nil =>
        refine ⟨g, by simpa using hg, ?_⟩
        simp [npEnd, e2, e3, hr]
      | cons f' l' =>
        obtain ⟨g', h1, h2⟩ := i2 (by simp)
        refine ⟨g', ?_, ?_⟩
        · rw [← h1]; congr 1; simp; omega
        · rw [h2]; congr 2; simp; omega

/-- Any structure: numpy's aligned dtype and the C compiler put the members at the same offsets and give the
structure the same size. -/
theorem C147_layout (l : List (Member ν Np)) (c : List (Member ν CTy)) (hne : l ≠ []) (h : Same l c) :
    (∀ i, (npOffsets true 0 l)[i]? = (c[i]?).map fun g => (g.name, cOffsetAt c i)) ∧
    npItemsize true l = cSizeof c := by
  have h0 : ∀ g, c[0]? = some g → roundUp 0 g.ty.size = cOffsetAt c 0 := by
    intro g _
    have := g.ty.size_pos
    rw [cOffsetAt, roundUp, Nat.div_eq_of_lt (by omega)]
    simp
  obtain ⟨a1, a2⟩ := offsets_aux c l 0 0 (by simpa using h) h0
  have hl : l.length = c.length := by
    have := congrArg List.length h
    simpa using this
  have hm : (l.map (·.ty.size)) = (c.map (·.ty.size)) := by
    have := congrArg (List.map fun x : ν × Nat × Nat => x.2.1) h
    simpa [List.map_map, Function.comp_def] using this
  refine ⟨fun i => by simpa using a1 i, ?_⟩
  obtain ⟨g, h1, h2⟩ := a2 hne
  rw [Nat.zero_add, hl] at h1 h2
  rw [npItemsize, if_pos rfl, cSizeof, h1, h2, hm]

end

/-- The four pairs of declarations agree, and where the members are. -/
theorem C147_declarations :
    Same npPatch cPatch ∧ Same npSource cSource ∧ Same (npPsf .float32) cPsf ∧ Same npResponse cResponse ∧
    cSizeof cPatch = 152 ∧ cSizeof cSource = 264 ∧ cSizeof cPsf = 28 ∧ cSizeof cResponse = 840 ∧
    npItemsize false (npPsf .float32) = 28 := by
  refine ⟨?_, ?_, ?_, ?_, ?_, ?_, ?_, ?_, ?_⟩ <;> decide +kernel

/-- The pointers a structure member declares point to elements of the type of the array. -/
theorem C147_pointees (n : Name) (t : String) (h : ({ name := n, ty := .ptr t } : Member Name CTy) ∈ cPatch) :
    t = match n with
      | .exposure_start | .exposure_N | .n_psf_per_source | .psfgauss_start => "int"
      | .band_start | .band_N => "int16_t"
      | .psfgauss => "PSFSourceGaussian"
      | _ => "float" := by
  simp only [cPatch, List.mem_cons, Member.mk.injEq, CTy.ptr.injEq, List.not_mem_nil, reduceCtorEq] at h
  simp only [false_and, and_false, or_false, false_or, and_true] at h
  rcases h with ⟨rfl, rfl⟩ | ⟨rfl, rfl⟩ | ⟨rfl, rfl⟩ | ⟨rfl, rfl⟩ | ⟨rfl, rfl⟩ | ⟨rfl, rfl⟩ | ⟨rfl, rfl⟩ |
    ⟨rfl, rfl⟩ | ⟨rfl, rfl⟩ | ⟨rfl, rfl⟩ | ⟨rfl, rfl⟩ | ⟨rfl, rfl⟩ | ⟨rfl, rfl⟩ | ⟨rfl, rfl⟩ | ⟨rfl, rfl⟩ |
    ⟨rfl, rfl⟩ | ⟨rfl, rfl⟩ | ⟨rfl, rfl⟩ <;> rfl

/-! ## The patch -/

/-- The patch `P` was sent: memory holds its structure at `p` and its arrays at the addresses of the dictionary
`addr`, in which only the residual may be missing. -/
structure Sent (pix met : Np) (m : Mem) (p : Nat) (addr : Name → Option Nat) (P : Attrs) : Prop where
  record : load m p (structBytes addr pix met P).length = structBytes addr pix met P
  arrays : ∀ n a, Device.isPtr n → addr n = some a →
    load m a (attrBytes pix met P n).length = attrBytes pix met P n
  all : ∀ n, Device.isPtr n → n ≠ .residual → ∃ a, addr n = some a
  small : ∀ n a, addr n = some a → a < 2 ^ 64

/-- The numbers fit their types. -/
structure Attrs.Fits (P : Attrs) : Prop where
  nSrc : P.nSrc < 2 ^ 31
  nRad : P.nRad < 2 ^ 31
  pix : ∀ n i, P.pix n i < 2 ^ 32
  expo : ∀ n i, -2 ^ 31 ≤ P.expo n i ∧ P.expo n i < 2 ^ 31
  band : ∀ n i, -2 ^ 15 ≤ P.band n i ∧ P.band n i < 2 ^ 15
  rad2 : ∀ i, P.rad2 i < 2 ^ 32
  mat : ∀ n e g i j, P.mat n e g i j < 2 ^ 32
  vec : ∀ n e g i, P.vec n e g i < 2 ^ 32
  G : ∀ i, P.G i < 2 ^ 32
  nPsf : ∀ i, -2 ^ 31 ≤ P.nPsf i ∧ P.nPsf i < 2 ^ 31
  psf : ∀ i f, P.psf i f < 2 ^ 32
  bin : ∀ i, -2 ^ 31 ≤ P.bin i ∧ P.bin i < 2 ^ 31
  psfStart : ∀ i, -2 ^ 31 ≤ P.psfStart i ∧ P.psfStart i < 2 ^ 31

lemma part (m : Mem) (p : Nat) (bs : List Byte) (h : load m p bs.length = bs) (o n : Nat) (ho : o + n ≤ bs.length) :
    load m (p + o) n = (bs.drop o).take n := by
  rw [load_sub m p bs.length o n ho, h]

lemma field_length (addr : Name → Option Nat) (pix met : Np) (P : Attrs) :
    ∀ f ∈ npPatch, ((fun n => if Device.isPtr n then toLE 8 ((addr n).getD 0) else attrBytes pix met P n)
      f.name).length = f.count * f.ty.size := by
  intro f hf
  simp only [npPatch, List.mem_cons, List.not_mem_nil, or_false] at hf
  rcases hf with rfl | rfl | rfl | rfl | rfl | rfl | rfl | rfl | rfl | rfl | rfl | rfl | rfl | rfl | rfl | rfl |
    rfl | rfl | rfl | rfl <;> simp [Device.isPtr, toLE_length, attrBytes, toInt_length, Np.size]

lemma patch_offset (x : Name) : (x, cOffset cPatch x) ∈ npOffsets true 0 npPatch := by
  cases x <;> decide +kernel

variable {pix met : Np} {m : Mem} {p : Nat} {addr : Name → Option Nat} {P : Attrs}

lemma Sent.field (h : Sent pix met m p addr P) (x : Name) :
    ∀ v, (if Device.isPtr x then toLE 8 ((addr x).getD 0) else attrBytes pix met P x) = v →
    load m (p + cOffset cPatch x) v.length = v := by
  rintro v rfl
  obtain ⟨h1, h2⟩ := record_field true npPatch
    (fun n => if Device.isPtr n then toLE 8 ((addr n).getD 0) else attrBytes pix met P n)
    (field_length addr pix met P)
  obtain ⟨h3, h4⟩ := h2 _ (patch_offset x)
  have := part m p _ h.record (cOffset cPatch x) _ (by rw [structBytes, h1]; exact h4)
  exact this.trans h3

lemma Sent.ptr (h : Sent pix met m p addr P) (x : Name) (hx : Device.isPtr x) : kPtr m p x = (addr x).getD 0 := by
  have := h.field x (toLE 8 ((addr x).getD 0)) (if_pos hx)
  rw [toLE_length] at this
  rw [kPtr, rdPtr, this, ofLE_toLE]
  cases ha : addr x with
  | none => simp
  | some a => have := h.small x a ha; simpa using this

lemma Sent.nSources (h : Sent pix met m p addr P) (hs : P.nSrc < 2 ^ 31) : kCount m p .n_sources = P.nSrc := by
  have := h.field .n_sources (toInt 4 P.nSrc) rfl
  rw [toInt_length] at this
  rw [kCount, rdInt, this, ofInt_toInt] <;> norm_num <;> omega

lemma Sent.nRadii (h : Sent pix met m p addr P) (hs : P.nRad < 2 ^ 31) : kCount m p .n_radii = P.nRad := by
  have := h.field .n_radii (toInt 4 P.nRad) rfl
  rw [toInt_length] at this
  rw [kCount, rdInt, this, ofInt_toInt] <;> norm_num <;> omega

/-- An entry of an array attribute. -/
lemma Sent.entry (h : Sent pix met m p addr P) (x : Name) (hx : Device.isPtr x) (hr : x ≠ .residual) (w : Nat)
    (s idx : List Nat) (v : List Nat → List Byte) (hv : ∀ l, (v l).length = w) (e : attrBytes pix met P x = arrBytes s v)
    (hi : List.Forall₂ (· < ·) idx s) (a : Nat) (ha : a = npAddress w s idx) :
    load m (kPtr m p x + a) w = v idx := by
  subst ha
  obtain ⟨a, ha⟩ := h.all x hx hr
  obtain ⟨h1, h2⟩ := arrBytes_sub w s idx v hv hi
  have := h.arrays x a hx ha
  rw [e] at this
  rw [h.ptr x hx, ha, Option.getD_some, part m a _ this _ _ h2, h1]

lemma elem_nat (base w i : Nat) : elem base w (i : Int) = base + w * i := by
  unfold elem
  omega

lemma one (i n : Nat) (h : i < n) : List.Forall₂ (· < ·) [i] [n] := .cons h .nil

lemma ofInt4 (v : Int) (h : -2 ^ 31 ≤ v ∧ v < 2 ^ 31) : ofInt (toInt 4 v) = v := by
  apply ofInt_toInt <;> norm_num at h ⊢ <;> omega

lemma ofInt2 (v : Int) (h : -2 ^ 15 ≤ v ∧ v < 2 ^ 15) : ofInt (toInt 2 v) = v := by
  apply ofInt_toInt <;> norm_num at h ⊢ <;> omega

/-- Pixels and counts. -/
theorem C147_pixels_partial (h : Sent .float32 met m p addr P) (hf : P.Fits) :
    (kCount m p .n_sources = P.nSrc ∧ kCount m p .n_radii = P.nRad) ∧
    (∀ i < P.npix, kPix m p .data i = P.pix .data i ∧ kPix m p .ierr i = P.pix .ierr i ∧
      kPix m p .xpix i = P.pix .xpix i ∧ kPix m p .ypix i = P.pix .ypix i) ∧
    (∀ e < P.nExp, kInt m p .exposure_start e = P.expo .exposure_start e ∧
      kInt m p .exposure_N e = P.expo .exposure_N e) ∧
    ∀ b < P.nBands, kBand m p .band_start b = P.band .band_start b ∧ kBand m p .band_N b = P.band .band_N b := by
  refine ⟨⟨h.nSources hf.nSrc, h.nRadii hf.nRad⟩, fun i hi => ?_, fun e he => ?_, fun b hb => ?_⟩
  · have hp : ∀ x, Device.isPtr x → x ≠ .residual →
        attrBytes .float32 met P x = arrBytes [P.npix] (fun i => toLE 4 (P.pix x (i.headD 0))) →
        kPix m p x i = P.pix x i := by
      intro x hx hr e
      have := h.entry x hx hr 4 [P.npix] [i] _ (fun l => toLE_length _ _) e (one i _ hi) (4 * i)
        (by simp [npAddress, Nat.mul_comm])
      rw [kPix, rdFloat, elem_nat, this, ofLE_toLE _ _ (by simpa using hf.pix x i)]
      rfl
    exact ⟨hp _ rfl (by decide) rfl, hp _ rfl (by decide) rfl, hp _ rfl (by decide) rfl, hp _ rfl (by decide) rfl⟩
  · have hp : ∀ x, Device.isPtr x → x ≠ .residual →
        attrBytes .float32 met P x = arrBytes [P.nExp] (fun i => toInt 4 (P.expo x (i.headD 0))) →
        kInt m p x e = P.expo x e := by
      intro x hx hr eq
      have := h.entry x hx hr 4 [P.nExp] [e] _ (fun l => toInt_length _ _) eq (one e _ he) (4 * e)
        (by simp [npAddress, Nat.mul_comm])
      rw [kInt, rdInt, elem_nat, this]
      exact ofInt4 _ (hf.expo x e)
    exact ⟨hp _ rfl (by decide) rfl, hp _ rfl (by decide) rfl⟩
  · have hp : ∀ x, Device.isPtr x → x ≠ .residual →
        attrBytes .float32 met P x = arrBytes [P.nBands] (fun i => toInt 2 (P.band x (i.headD 0))) →
        kBand m p x b = P.band x b := by
      intro x hx hr eq
      have := h.entry x hx hr 2 [P.nBands] [b] _ (fun l => toInt_length _ _) eq (one b _ hb) (2 * b)
        (by simp [npAddress, Nat.mul_comm])
      rw [kBand, rdInt16, elem_nat, this]
      exact ofInt2 _ (hf.band x b)
    exact ⟨hp _ rfl (by decide) rfl, hp _ rfl (by decide) rfl⟩

lemma psf_lengths (a : Int) (b : PsfField → Nat) : ∀ f ∈ npPsf .float32,
    ((fun f => if f = PsfField.bin then toInt 4 a else toLE (Np.float32).size (b f)) f.name).length =
      f.count * f.ty.size := by
  intro f hf
  simp only [npPsf, List.mem_cons, List.not_mem_nil, or_false] at hf
  rcases hf with rfl | rfl | rfl | rfl | rfl | rfl | rfl <;> simp [toLE_length, toInt_length, Np.size]

lemma psf_offset (f : PsfField) : (f, cOffset cPsf f) ∈ npOffsets false 0 (npPsf .float32) := by
  cases f <;> decide +kernel

/-- Metadata of the sources. -/
theorem C147_metadata_partial (h : Sent pix .float32 m p addr P) (hf : P.Fits) :
    (∀ s < P.nRad, kFloat m p .rad2 s = P.rad2 s) ∧
    (∀ e < P.nExp, kFloat m p .G e = P.G e ∧ kInt m p .psfgauss_start e = P.psfStart e) ∧
    (∀ b < P.nBands, kInt m p .n_psf_per_source b = P.nPsf b) ∧
    (∀ e < P.nExp, ∀ g < P.nSrc,
      (∀ k : Nat, k < 2 → kVec m p .crpix e g k = P.vec .crpix e g k ∧ kVec m p .crval e g k = P.vec .crval e g k) ∧
      kMat m p .D e g = (P.mat .D e g 0 0, P.mat .D e g 0 1, P.mat .D e g 1 0, P.mat .D e g 1 1) ∧
      kMat m p .CW e g = (P.mat .CW e g 0 0, P.mat .CW e g 0 1, P.mat .CW e g 1 0, P.mat .CW e g 1 1)) ∧
    ∀ i < P.nGauss, (∀ f, f ≠ .bin → kPsf m p i f = P.psf i f) ∧ kBin m p i = P.bin i := by
  have hn := h.nSources hf.nSrc
  refine ⟨fun s hs => ?_, fun e he => ⟨?_, ?_⟩, fun b hb => ?_, fun e he g hg => ⟨fun k hk => ?_, ?_⟩,
    fun i hi => ?_⟩
  · have := h.entry .rad2 rfl (by decide) 4 [P.nRad] [s] (fun i => toLE 4 (P.rad2 (i.headD 0))) (fun l => toLE_length _ _) rfl (one s _ hs) (4 * s)
      (by simp [npAddress, Nat.mul_comm])
    rw [kFloat, rdFloat, elem_nat, this]
    exact ofLE_toLE _ _ (by simpa using hf.rad2 s)
  · have := h.entry .G rfl (by decide) 4 [P.nExp] [e] (fun i => toLE 4 (P.G (i.headD 0))) (fun l => toLE_length _ _) rfl (one e _ he) (4 * e)
      (by simp [npAddress, Nat.mul_comm])
    rw [kFloat, rdFloat, elem_nat, this]
    exact ofLE_toLE _ _ (by simpa using hf.G e)
  · have := h.entry .psfgauss_start rfl (by decide) 4 [P.nExp] [e]
      (fun i => toInt 4 (P.psfStart (i.headD 0))) (fun l => toInt_length _ _) rfl (one e _ he)
      (4 * e) (by simp [npAddress, Nat.mul_comm])
    rw [kInt, rdInt, elem_nat, this]
    exact ofInt4 _ (hf.psfStart e)
  · have := h.entry .n_psf_per_source rfl (by decide) 4 [P.nBands] [b]
      (fun i => toInt 4 (P.nPsf (i.headD 0))) (fun l => toInt_length _ _) rfl
      (one b _ hb) (4 * b) (by simp [npAddress, Nat.mul_comm])
    rw [kInt, rdInt, elem_nat, this]
    exact ofInt4 _ (hf.nPsf b)
  · have hp : ∀ x, Device.isPtr x → x ≠ .residual →
        attrBytes pix .float32 P x = arrBytes [P.nExp, P.nSrc, 2]
          (fun i => toLE 4 (P.vec x (i.getD 0 0) (i.getD 1 0) (i.getD 2 0))) →
        kVec m p x e g k = P.vec x e g k := by
      intro x hx hr eq
      have := h.entry x hx hr 4 [P.nExp, P.nSrc, 2] [e, g, k] _ (fun l => toLE_length _ _) eq
        (.cons he (.cons hg (one k _ hk))) (4 * (2 * (P.nSrc * e + g) + k))
        (by simp [npAddress]; ring)
      rw [kVec, rdFloat, hn]
      have ei : (2 * ((P.nSrc : Int) * e + g) + k : Int) = ((2 * (P.nSrc * e + g) + k : Nat) : Int) := by push_cast; ring
      rw [ei, elem_nat, this, ofLE_toLE _ _ (by simpa using hf.vec x e g k)]
      rfl
    exact ⟨hp _ rfl (by decide) rfl, hp _ rfl (by decide) rfl⟩
  · have hp : ∀ x, Device.isPtr x → x ≠ .residual →
        attrBytes pix .float32 P x = arrBytes [P.nExp, P.nSrc, 2, 2]
          (fun i => toLE 4 (P.mat x (i.getD 0 0) (i.getD 1 0) (i.getD 2 0) (i.getD 3 0))) →
        kMat m p x e g = (P.mat x e g 0 0, P.mat x e g 0 1, P.mat x e g 1 0, P.mat x e g 1 1) := by
      intro x hx hr eq
      have hh : ∀ a < 2, ∀ b < 2, rdFloat m (elem (elem (kPtr m p x) 4 (4 * (kCount m p .n_sources * e + g))) 4
          ((2 * a + b : Nat) : Int)) = P.mat x e g a b := by
        intro a ha b hb
        have := h.entry x hx hr 4 [P.nExp, P.nSrc, 2, 2] [e, g, a, b] _ (fun l => toLE_length _ _) eq
          (.cons he (.cons hg (.cons ha (one b _ hb)))) (4 * (4 * (P.nSrc * e + g)) + 4 * (2 * a + b))
          (by simp [npAddress]; ring)
        have ei : (4 * ((P.nSrc : Int) * e + g) : Int) = ((4 * (P.nSrc * e + g) : Nat) : Int) := by push_cast; ring
        rw [rdFloat, hn, ei, elem_nat, elem_nat, Nat.add_assoc, this, ofLE_toLE _ _ (by simpa using hf.mat x e g a b)]
        rfl
      rw [kMat]
      simp only [Prod.mk.injEq]
      exact ⟨hh 0 (by decide) 0 (by decide), hh 0 (by decide) 1 (by decide), hh 1 (by decide) 0 (by decide),
        hh 1 (by decide) 1 (by decide)⟩
    exact ⟨hp _ rfl (by decide) rfl, hp _ rfl (by decide) rfl⟩
  · -- a record of `psfgauss`
    have hs : npItemsize false (npPsf .float32) = 28 := by decide +kernel
    have hc : cSizeof cPsf = 28 := by decide +kernel
    have hrec := fun i => record_field false (npPsf .float32)
      (fun f => if f = PsfField.bin then toInt 4 (P.bin i) else toLE (Np.float32).size (P.psf i f))
      (psf_lengths (P.bin i) (P.psf i))
    have h0 := h.entry .psfgauss rfl (by decide) 28 [P.nGauss] [i]
      (fun i => recordBytes false (npPsf .float32) fun f =>
        if f = .bin then toInt 4 (P.bin (i.headD 0)) else toLE (Np.float32).size (P.psf (i.headD 0) f))
      (fun l => by rw [(hrec _).1, hs]) rfl
      (one i _ hi) (28 * i) (by simp [npAddress, Nat.mul_comm])
    obtain ⟨hl, hfld⟩ := hrec i
    rw [hs] at hl
    have hread : ∀ f : PsfField, load m (elem (kPtr m p .psfgauss) (cSizeof cPsf) i + cOffset cPsf f) 4 =
        if f = .bin then toInt 4 (P.bin i) else toLE 4 (P.psf i f) := by
      intro f
      obtain ⟨r1, r2⟩ := hfld _ (psf_offset f)
      have hlen : (if f = PsfField.bin then toInt 4 (P.bin i) else toLE (Np.float32).size (P.psf i f)).length = 4 := by
        split <;> simp [toInt_length, toLE_length, Np.size]
      rw [hs] at r2
      simp only [hlen] at r1 r2
      rw [hc, elem_nat]
      rw [load_sub m (kPtr m p .psfgauss + 28 * i) 28 (cOffset cPsf f) 4 r2, h0]
      exact r1
    constructor
    · intro f hfb
      rw [kPsf, rdFloat, hread f, if_neg hfb, ofLE_toLE _ _ (by simpa using hf.psf i f)]
    · rw [kBin, rdInt, hread .bin, if_pos rfl]
      exact ofInt4 _ (hf.bin i)

end Forcepho.Layout
