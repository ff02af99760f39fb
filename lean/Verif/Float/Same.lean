import Verif.Float.Range

/-! # C154: the two models of a gaussian

Where no intermediate result under- or overflows, the making of a gaussian with infinities and values that are not
numbers (`Special.lean`) is that of C138. -/

set_option autoImplicit false

namespace Forcepho.Float.Special

/-- Zero, or in the range of normal `float` numbers. -/
def Normal (x : ℝ) : Prop := x = 0 ∨ (1 / 2 ^ 126 ≤ |x| ∧ |x| ≤ 2 ^ 127)

lemma rnd_normal (x : ℝ) (h : Normal x) : rnd single (.num x) = .num (fl 24 x) := by
  rcases h with rfl | ⟨h1, h2⟩
  · rw [rnd_zero, fl, if_pos rfl]
  · rw [rnd_single x h2, nearest, if_neg]
    · rfl
    · rw [not_lt]
      refine le_trans (le_of_eq ?_) h1
      rw [show single.emin = -((126 : ℕ) : ℤ) from rfl, zpow_neg, zpow_natCast, one_div]

/-! ## What is rounded -/

/-- The exact results that are rounded in `a * v + b * w`. -/
noncomputable def avR (fma : Bool) (a b v w : ℝ) : List ℝ :=
  if fma then [b * w, a * v + fl 24 (b * w)] else [a * v, b * w, fl 24 (a * v) + fl 24 (b * w)]

/-- Those of a product of matrices. -/
noncomputable def mulR (fma : Bool) (A B : Float.Mat) : List ℝ :=
  avR fma A.v11 A.v12 B.v11 B.v21 ++ avR fma A.v11 A.v12 B.v12 B.v22 ++
    avR fma A.v21 A.v22 B.v11 B.v21 ++ avR fma A.v21 A.v22 B.v12 B.v22

/-- Those of a determinant. -/
noncomputable def detR (fma : Bool) (A : Float.Mat) : List ℝ :=
  if fma then [A.v12 * A.v21, A.v11 * A.v22 - fl 24 (A.v12 * A.v21)]
  else [A.v11 * A.v22, A.v12 * A.v21, fl 24 (A.v11 * A.v22) - fl 24 (A.v12 * A.v21)]

/-- Those of an inverse. -/
noncomputable def invR (fma : Bool) (A : Float.Mat) : List ℝ :=
  detR fma A ++ [1 / Float.detM fma A, A.v22 * fl 24 (1 / Float.detM fma A), -A.v12 * fl 24 (1 / Float.detM fma A),
    -A.v21 * fl 24 (1 / Float.detM fma A), A.v11 * fl 24 (1 / Float.detM fma A)]

/-- Those of the covariance, the inverse covariance and the amplitude of a gaussian. -/
noncomputable def shapeR (fma : Bool) (cs sn : ℝ → ℝ) (i : Float.Parts) : List ℝ :=
  let R := Float.mulM fma i.D (Float.rotM cs sn i.pa)
  let T := Float.tM fma cs sn i
  let A := Float.aat fma T
  let M := Float.smulM i.rad2 A
  mulR fma i.D (Float.rotM cs sn i.pa) ++ [1 / i.q] ++ mulR fma R (Float.scaleM i.q) ++
    (avR fma T.v11 T.v12 T.v21 T.v22 ++ avR fma T.v11 T.v12 T.v11 T.v12 ++ avR fma T.v21 T.v22 T.v21 T.v22) ++
    [i.rad2 * A.v11, i.rad2 * A.v12, i.rad2 * A.v21, i.rad2 * A.v22] ++
    [M.v11 + i.cxx, M.v12 + i.cxy, M.v21 + i.cxy, M.v22 + i.cyy] ++
    invR fma (Float.covM fma cs sn i)

/-- Those of the amplitude. -/
noncomputable def ampR (fma : Bool) (f : Float.Mat) (i : Float.Parts) : List ℝ :=
  let s := fl 24 (Real.sqrt (Float.detM fma f))
  let a := fl 24 (i.G * i.pamp)
  let t := fl 24 (fl 24 (a * s) * invTwoPi)
  detR fma f ++ [Real.sqrt (Float.detM fma f), i.G * i.pamp, a * s, fl 24 (a * s) * invTwoPi, t * i.flux, fl 24 (t * i.flux) * i.samp]

/-- Those of one coordinate of the centre. -/
noncomputable def cenR (fma : Bool) (a b m n c p : ℝ) : List ℝ :=
  avR fma a b m n ++ [Float.av fma a b m n + c, fl 24 (Float.av fma a b m n + c) + p]

/-! ## The same values -/

/-- A matrix of numbers. -/
def ofMat (A : Float.Mat) : Mat := ⟨.num A.v11, .num A.v12, .num A.v21, .num A.v22⟩

lemma av_same (fma : Bool) (a b v w : ℝ) (h : ∀ x ∈ avR fma a b v w, Normal x) :
    av fma (.num a) (.num b) (.num v) (.num w) = .num (Float.av fma a b v w) := by
  cases fma
  · simp only [avR, Bool.false_eq_true, if_false, List.mem_cons, List.not_mem_nil, or_false, forall_eq_or_imp,
      forall_eq] at h
    simp only [av, Float.av, Bool.false_eq_true, if_false, add, mul, mulE, rnd_normal _ h.1, rnd_normal _ h.2.1, addE,
      rnd_normal _ h.2.2]
  · simp only [avR, if_true, List.mem_cons, List.not_mem_nil, or_false, forall_eq_or_imp, forall_eq] at h
    simp only [av, Float.av, if_true, fmadd, mul, mulE, rnd_normal _ h.1, addE, rnd_normal _ h.2]

lemma mul_same (fma : Bool) (A B : Float.Mat) (h : ∀ x ∈ mulR fma A B, Normal x) :
    mulM fma (ofMat A) (ofMat B) = ofMat (Float.mulM fma A B) := by
  simp only [mulR, List.mem_append] at h
  simp only [mulM, ofMat, Float.mulM]
  rw [av_same fma _ _ _ _ fun x hx => h x (by tauto), av_same fma _ _ _ _ fun x hx => h x (by tauto),
    av_same fma _ _ _ _ fun x hx => h x (by tauto), av_same fma _ _ _ _ fun x hx => h x (by tauto)]

lemma det_same (fma : Bool) (A : Float.Mat) (h : ∀ x ∈ detR fma A, Normal x) :
    detM fma (ofMat A) = .num (Float.detM fma A) := by
  cases fma
  · simp only [detR, Bool.false_eq_true, if_false, List.mem_cons, List.not_mem_nil, or_false, forall_eq_or_imp,
      forall_eq] at h
    simp only [detM, ofMat, Float.detM, Bool.false_eq_true, if_false, sub, mul, mulE, rnd_normal _ h.1,
      rnd_normal _ h.2.1, neg, addE, ← sub_eq_add_neg, rnd_normal _ h.2.2]
  · simp only [detR, if_true, List.mem_cons, List.not_mem_nil, or_false, forall_eq_or_imp, forall_eq] at h
    simp only [detM, ofMat, Float.detM, if_true, fmadd, mul, mulE, rnd_normal _ h.1, neg, addE, ← sub_eq_add_neg,
      rnd_normal _ h.2]

lemma inv_same (fma : Bool) (A : Float.Mat) (hd : Float.detM fma A ≠ 0) (h : ∀ x ∈ invR fma A, Normal x) :
    invM fma (ofMat A) = ofMat (Float.invM fma A) := by
  simp only [invR, List.mem_append, List.mem_cons, List.not_mem_nil, or_false] at h
  have hdet := det_same fma A fun x hx => h x (.inl hx)
  have hi : div (.num 1) (detM fma (ofMat A)) = .num (fl 24 (1 / Float.detM fma A)) := by
    rw [hdet, div, divE, if_neg hd, rnd_normal _ (h _ (by tauto))]
  simp only [invM, hi]
  simp only [ofMat, Float.invM, mul, mulE, neg]
  rw [rnd_normal _ (h _ (.inr (.inr (.inl rfl)))), rnd_normal _ (h _ (.inr (.inr (.inr (.inl rfl))))),
    rnd_normal _ (h _ (.inr (.inr (.inr (.inr (.inl rfl)))))), rnd_normal _ (h _ (.inr (.inr (.inr (.inr (.inr rfl))))))]

/-- The memory of a gaussian of numbers. -/
def ofParts (i : Float.Parts) (CW : Float.Mat) (crpix crval : ℝ × ℝ) (ra dec px py : ℝ) : Parts :=
  { D := ofMat i.D
    CW := ofMat CW
    crpix := (.num crpix.1, .num crpix.2)
    crval := (.num crval.1, .num crval.2)
    ra := .num ra
    dec := .num dec
    q := .num i.q
    pa := .num i.pa
    rad2 := .num i.rad2
    cxx := .num i.cxx
    cxy := .num i.cxy
    cyy := .num i.cyy
    px := .num px
    py := .num py
    G := .num i.G
    pamp := .num i.pamp
    flux := .num i.flux
    samp := .num i.samp }

/-- C154 (same): if no intermediate result is out of the range of normal numbers, then the gaussian that is built is that
of C138, and its centre is the matrix of the exposure times the offset from the reference position, plus the reference
pixel and the offset of the PSF gaussian. -/
theorem C154_same (fma : Bool) (cs sn : Val → Val) (cs' sn' : ℝ → ℝ) (i : Float.Parts) (CW : Float.Mat)
    (crpix crval : ℝ × ℝ) (ra dec px py : ℝ) (hc : cs (.num i.pa) = .num (cs' i.pa)) (hs : sn (.num i.pa) = .num (sn' i.pa))
    (hq : i.q ≠ 0) (hd : Float.detM fma (Float.covM fma cs' sn' i) ≠ 0)
    (hd' : 0 ≤ Float.detM fma (Float.invM fma (Float.covM fma cs' sn' i)))
    (h1 : ∀ x ∈ shapeR fma cs' sn' i, Normal x)
    (h2 : ∀ x ∈ ampR fma (Float.invM fma (Float.covM fma cs' sn' i)) i, Normal x)
    (h3 : Normal (ra - crval.1) ∧ Normal (dec - crval.2))
    (h4 : ∀ x ∈ cenR fma CW.v11 CW.v12 (fl 24 (ra - crval.1)) (fl 24 (dec - crval.2)) crpix.1 px, Normal x)
    (h5 : ∀ x ∈ cenR fma CW.v21 CW.v22 (fl 24 (ra - crval.1)) (fl 24 (dec - crval.2)) crpix.2 py, Normal x) :
    buildGauss fma cs sn (ofParts i CW crpix crval ra dec px py) =
      ofReal (Float.buildGauss fma cs' sn' i
        (fl 24 (fl 24 (Float.av fma CW.v11 CW.v12 (fl 24 (ra - crval.1)) (fl 24 (dec - crval.2)) + crpix.1) + px))
        (fl 24 (fl 24 (Float.av fma CW.v21 CW.v22 (fl 24 (ra - crval.1)) (fl 24 (dec - crval.2)) + crpix.2) + py))) := by
  simp only [shapeR, List.mem_append] at h1
  have hrot : rotM cs sn (.num i.pa) = ofMat (Float.rotM cs' sn' i.pa) := by
    simp only [rotM, hc, hs, neg, ofMat, Float.rotM]
  have hscale : scaleM (.num i.q) = ofMat (Float.scaleM i.q) := by
    simp only [scaleM, div, divE, if_neg hq, ofMat, Float.scaleM]
    rw [rnd_normal _ (h1 _ (by simp))]
  have hm1 := mul_same fma i.D (Float.rotM cs' sn' i.pa) fun x hx => h1 x (by tauto)
  have hm2 := mul_same fma (Float.mulM fma i.D (Float.rotM cs' sn' i.pa)) (Float.scaleM i.q) fun x hx => h1 x (by tauto)
  have hT : tM fma cs sn (ofParts i CW crpix crval ra dec px py) = ofMat (Float.tM fma cs' sn' i) := by
    simp only [tM, ofParts, hrot, hscale, hm1, hm2, Float.tM]
  have hA : aat fma (ofMat (Float.tM fma cs' sn' i)) = ofMat (Float.aat fma (Float.tM fma cs' sn' i)) := by
    simp only [aat, ofMat, Float.aat]
    rw [av_same fma _ _ _ _ fun x hx => h1 x (by tauto), av_same fma _ _ _ _ fun x hx => h1 x (by tauto),
      av_same fma _ _ _ _ fun x hx => h1 x (by tauto)]
  have hC : covM fma cs sn (ofParts i CW crpix crval ra dec px py) = ofMat (Float.covM fma cs' sn' i) := by
    rw [covM, hT, hA]
    simp only [smulM, ofMat, ofParts, mul, mulE, addM, add]
    rw [rnd_normal (i.rad2 * (Float.aat fma (Float.tM fma cs' sn' i)).v11) (h1 _ (by simp)),
      rnd_normal (i.rad2 * (Float.aat fma (Float.tM fma cs' sn' i)).v12) (h1 _ (by simp)),
      rnd_normal (i.rad2 * (Float.aat fma (Float.tM fma cs' sn' i)).v21) (h1 _ (by simp)),
      rnd_normal (i.rad2 * (Float.aat fma (Float.tM fma cs' sn' i)).v22) (h1 _ (by simp))]
    simp only [addE]
    rw [rnd_normal (fl 24 (i.rad2 * (Float.aat fma (Float.tM fma cs' sn' i)).v11) + i.cxx) (h1 _ (by simp [Float.smulM])),
      rnd_normal (fl 24 (i.rad2 * (Float.aat fma (Float.tM fma cs' sn' i)).v12) + i.cxy) (h1 _ (by simp [Float.smulM])),
      rnd_normal (fl 24 (i.rad2 * (Float.aat fma (Float.tM fma cs' sn' i)).v21) + i.cxy) (h1 _ (by simp [Float.smulM])),
      rnd_normal (fl 24 (i.rad2 * (Float.aat fma (Float.tM fma cs' sn' i)).v22) + i.cyy) (h1 _ (by simp [Float.smulM]))]
    rfl
  have hI : invM fma (ofMat (Float.covM fma cs' sn' i)) = ofMat (Float.invM fma (Float.covM fma cs' sn' i)) :=
    inv_same fma _ hd fun x hx => h1 x (by tauto)
  set f := Float.invM fma (Float.covM fma cs' sn' i) with hf
  simp only [ampR, List.mem_append, List.mem_cons, List.not_mem_nil, or_false] at h2
  have hdet := det_same fma f fun x hx => h2 x (by tauto)
  have hsq : sqrt (.num (Float.detM fma f)) = .num (fl 24 (Real.sqrt (Float.detM fma f))) := by
    rw [sqrt, sqrtE, if_neg (not_lt.2 hd'), rnd_normal _ (h2 _ (by tauto))]
  have cen : ∀ a b c p : ℝ, (∀ x ∈ cenR fma a b (fl 24 (ra - crval.1)) (fl 24 (dec - crval.2)) c p, Normal x) →
      add (add (av fma (.num a) (.num b) (sub (.num ra) (.num crval.1)) (sub (.num dec) (.num crval.2))) (.num c)) (.num p) =
      .num (fl 24 (fl 24 (Float.av fma a b (fl 24 (ra - crval.1)) (fl 24 (dec - crval.2)) + c) + p)) := by
    intro a b c p h
    simp only [cenR, List.mem_append, List.mem_cons, List.not_mem_nil, or_false] at h
    have e1 : sub (.num ra) (.num crval.1) = .num (fl 24 (ra - crval.1)) := by
      rw [sub, neg, addE, ← sub_eq_add_neg, rnd_normal _ h3.1]
    have e2 : sub (.num dec) (.num crval.2) = .num (fl 24 (dec - crval.2)) := by
      rw [sub, neg, addE, ← sub_eq_add_neg, rnd_normal _ h3.2]
    rw [e1, e2, av_same fma _ _ _ _ fun x hx => h x (by tauto), add, add, addE, rnd_normal _ (h _ (by tauto)), addE,
      rnd_normal _ (h _ (by tauto))]
  have c1 := cen _ _ _ _ h4
  have c2 := cen _ _ _ _ h5
  simp only [buildGauss, hC, hI, hdet, hsq]
  simp only [ofParts, ofMat, c1, c2]
  simp only [mul, mulE]
  rw [rnd_normal (i.G * i.pamp) (h2 _ (by tauto))]
  simp only [mulE]
  rw [rnd_normal (fl 24 (i.G * i.pamp) * fl 24 (Real.sqrt (Float.detM fma f))) (h2 _ (by tauto))]
  simp only [mulE]
  rw [rnd_normal (fl 24 (fl 24 (i.G * i.pamp) * fl 24 (Real.sqrt (Float.detM fma f))) * invTwoPi) (h2 _ (by tauto))]
  simp only [mulE]
  rw [rnd_normal (fl 24 (fl 24 (fl 24 (i.G * i.pamp) * fl 24 (Real.sqrt (Float.detM fma f))) * invTwoPi) * i.flux)
    (h2 _ (by tauto))]
  simp only [mulE]
  rw [rnd_normal (fl 24 (fl 24 (fl 24 (fl 24 (i.G * i.pamp) * fl 24 (Real.sqrt (Float.detM fma f))) * invTwoPi) * i.flux) *
    i.samp) (h2 _ (by tauto))]
  rfl

/-! ## A case -/

/-- A source with the axis ratio 1/4 (`q` is its square root) whose numbers are all exact. -/
noncomputable def exactParts : Float.Parts := ⟨⟨24, 32, -32, 24⟩, 1 / 2, 0, 1 / 16, 96, 52, 55, 2, 3 / 4, 5, 1 / 4⟩

lemma normal_of (x : ℝ) (h : 1 / 2 ^ 20 ≤ |x| ∧ |x| ≤ 2 ^ 20) : Normal x := by
  refine .inr ⟨le_trans ?_ h.1, h.2.trans (by norm_num)⟩
  norm_num

lemma normal_zero : Normal 0 := .inl rfl

lemma avR_lit (fma : Bool) (a b v w : ℝ) (n₁ e₁ n₂ e₂ : ℤ) (h1 : a * v = n₁ * 2 ^ e₁) (hn1 : |n₁| ≤ 2 ^ 24)
    (h2 : b * w = n₂ * 2 ^ e₂) (hn2 : |n₂| ≤ 2 ^ 24) (k1 : Normal (a * v)) (k2 : Normal (b * w))
    (k3 : Normal (a * v + b * w)) : ∀ x ∈ avR fma a b v w, Normal x := by
  have e1 := fl_lit _ n₁ e₁ hn1 h1
  have e2 := fl_lit _ n₂ e₂ hn2 h2
  cases fma <;> simp [avR, e1, e2, k1, k2, k3]

/-- An integer that is not too big is normal. -/
lemma normal_int (n : ℤ) (h : |n| ≤ 2 ^ 20) : Normal n := by
  by_cases h0 : n = 0
  · left; exact_mod_cast h0
  · apply normal_of
    have h1 : 1 ≤ |n| := Int.one_le_abs h0
    have h2 : (1 : ℝ) ≤ |(n : ℝ)| := by exact_mod_cast h1
    have h3 : |(n : ℝ)| ≤ 2 ^ 20 := by exact_mod_cast h
    refine ⟨le_trans ?_ h2, h3⟩
    norm_num

lemma avR_int (fma : Bool) (a b v w : ℝ) (m n : ℤ) (h1 : a * v = m) (h2 : b * w = n) (hm : |m| ≤ 2 ^ 19) (hn : |n| ≤ 2 ^ 19) :
    (∀ x ∈ avR fma a b v w, Normal x) ∧ Float.av fma a b v w = ((m + n : ℤ) : ℝ) := by
  have hs : |m + n| ≤ 2 ^ 20 := by
    refine (abs_add_le m n).trans ?_
    norm_num at *
    omega
  constructor
  · refine avR_lit fma a b v w m 0 n 0 (by simpa using h1) (hm.trans (by norm_num)) (by simpa using h2)
      (hn.trans (by norm_num)) (by rw [h1]; exact normal_int m (hm.trans (by norm_num)))
      (by rw [h2]; exact normal_int n (hn.trans (by norm_num))) ?_
    rw [h1, h2]
    exact_mod_cast normal_int (m + n) hs
  · exact av_lit fma a b v w _ m 0 n 0 (m + n) 0 (by simpa using h1) (hm.trans (by norm_num)) (by simpa using h2)
      (hn.trans (by norm_num)) (by rw [h1, h2]; push_cast; ring) (by simp) (hs.trans (by norm_num))

lemma fl_int (n : ℤ) (h : |n| ≤ 2 ^ 24) : fl 24 (n : ℝ) = n := fl_lit _ n 0 h (by simp)

lemma exact_rot : Float.rotM Real.cos Real.sin 0 = ⟨1, 0, 0, 1⟩ := by simp [Float.rotM]

lemma exact_scale : Float.scaleM (1 / 2) = ⟨2, 0, 0, 1 / 2⟩ := by
  rw [Float.scaleM, fl_lit _ 2 0 (by norm_num) (by norm_num)]
  norm_num

lemma exact_R (fma : Bool) : (∀ x ∈ mulR fma ⟨24, 32, -32, 24⟩ ⟨1, 0, 0, 1⟩, Normal x) ∧
    Float.mulM fma ⟨24, 32, -32, 24⟩ ⟨1, 0, 0, 1⟩ = ⟨24, 32, -32, 24⟩ := by
  have a := avR_int fma 24 32 1 0 24 0 (by norm_num) (by norm_num) (by norm_num) (by norm_num)
  have b := avR_int fma 24 32 0 1 0 32 (by norm_num) (by norm_num) (by norm_num) (by norm_num)
  have c := avR_int fma (-32) 24 1 0 (-32) 0 (by norm_num) (by norm_num) (by norm_num) (by norm_num)
  have d := avR_int fma (-32) 24 0 1 0 24 (by norm_num) (by norm_num) (by norm_num) (by norm_num)
  constructor
  · intro x hx
    simp only [mulR, List.mem_append] at hx
    rcases hx with ((hx | hx) | hx) | hx
    · exact a.1 x hx
    · exact b.1 x hx
    · exact c.1 x hx
    · exact d.1 x hx
  · rw [Float.mulM]
    dsimp only
    rw [a.2, b.2, c.2, d.2]
    norm_num

lemma exact_T (fma : Bool) : (∀ x ∈ mulR fma ⟨24, 32, -32, 24⟩ ⟨2, 0, 0, 1 / 2⟩, Normal x) ∧
    Float.mulM fma ⟨24, 32, -32, 24⟩ ⟨2, 0, 0, 1 / 2⟩ = ⟨48, 16, -64, 12⟩ := by
  have a := avR_int fma 24 32 2 0 48 0 (by norm_num) (by norm_num) (by norm_num) (by norm_num)
  have b := avR_int fma 24 32 0 (1 / 2) 0 16 (by norm_num) (by norm_num) (by norm_num) (by norm_num)
  have c := avR_int fma (-32) 24 2 0 (-64) 0 (by norm_num) (by norm_num) (by norm_num) (by norm_num)
  have d := avR_int fma (-32) 24 0 (1 / 2) 0 12 (by norm_num) (by norm_num) (by norm_num) (by norm_num)
  constructor
  · intro x hx
    simp only [mulR, List.mem_append] at hx
    rcases hx with ((hx | hx) | hx) | hx
    · exact a.1 x hx
    · exact b.1 x hx
    · exact c.1 x hx
    · exact d.1 x hx
  · rw [Float.mulM]
    dsimp only
    rw [a.2, b.2, c.2, d.2]
    norm_num

lemma exact_tM (fma : Bool) : Float.tM fma Real.cos Real.sin exactParts = ⟨48, 16, -64, 12⟩ := by
  rw [Float.tM, exactParts]
  dsimp only
  rw [exact_rot, exact_scale, (exact_R fma).2, (exact_T fma).2]

lemma exact_aat (fma : Bool) : (∀ x ∈ avR fma 48 16 (-64) 12 ++ avR fma 48 16 48 16 ++ avR fma (-64) 12 (-64) 12, Normal x) ∧
    Float.aat fma ⟨48, 16, -64, 12⟩ = ⟨2560, -2880, -2880, 4240⟩ := by
  have a := avR_int fma 48 16 (-64) 12 (-3072) 192 (by norm_num) (by norm_num) (by norm_num) (by norm_num)
  have b := avR_int fma 48 16 48 16 2304 256 (by norm_num) (by norm_num) (by norm_num) (by norm_num)
  have c := avR_int fma (-64) 12 (-64) 12 4096 144 (by norm_num) (by norm_num) (by norm_num) (by norm_num)
  constructor
  · intro x hx
    simp only [List.mem_append] at hx
    rcases hx with (hx | hx) | hx
    · exact a.1 x hx
    · exact b.1 x hx
    · exact c.1 x hx
  · rw [Float.aat]
    dsimp only
    rw [a.2, b.2, c.2]
    norm_num

lemma exact_smul : Float.smulM (1 / 16) ⟨2560, -2880, -2880, 4240⟩ = ⟨160, -180, -180, 265⟩ := by
  rw [Float.smulM]
  dsimp only
  rw [fl_lit _ 160 0 (by norm_num) (by norm_num), fl_lit _ (-180) 0 (by norm_num) (by norm_num),
    fl_lit _ 265 0 (by norm_num) (by norm_num)]
  norm_num

lemma exact_cov (fma : Bool) : Float.covM fma Real.cos Real.sin exactParts = ⟨256, -128, -128, 320⟩ := by
  rw [Float.covM, exact_tM, (exact_aat fma).2]
  simp only [exactParts]
  rw [exact_smul, Float.addM]
  dsimp only
  rw [fl_lit _ 256 0 (by norm_num) (by norm_num), fl_lit _ (-128) 0 (by norm_num) (by norm_num),
    fl_lit _ 320 0 (by norm_num) (by norm_num)]
  norm_num

lemma exact_det (fma : Bool) : (∀ x ∈ detR fma ⟨256, -128, -128, 320⟩, Normal x) ∧
    Float.detM fma ⟨256, -128, -128, 320⟩ = 65536 := by
  have a := fl_lit (256 * 320) 81920 0 (by norm_num) (by norm_num)
  have b := fl_lit (-128 * -128) 16384 0 (by norm_num) (by norm_num)
  have c := fl_lit (256 * 320 - -128 * -128) 65536 0 (by norm_num) (by norm_num)
  constructor
  · cases fma <;> simp only [detR, a, b, if_true, if_false, Bool.false_eq_true, List.mem_cons, List.not_mem_nil, or_false,
      forall_eq_or_imp, forall_eq]
    · exact ⟨normal_of _ (by norm_num), normal_of _ (by norm_num), normal_of _ (by norm_num)⟩
    · exact ⟨normal_of _ (by norm_num), normal_of _ (by norm_num)⟩
  · rw [Float.detM]
    dsimp only
    rw [a, b, c, ite_self]
    norm_num

lemma exact_inv (fma : Bool) : (∀ x ∈ invR fma ⟨256, -128, -128, 320⟩, Normal x) ∧
    Float.invM fma ⟨256, -128, -128, 320⟩ = ⟨5 / 1024, 1 / 512, 1 / 512, 1 / 256⟩ := by
  have a := fl_lit (1 / 65536) 1 (-16) (by norm_num) (by norm_num)
  constructor
  · intro x hx
    rw [invR, (exact_det fma).2, a] at hx
    simp only [List.mem_append, List.mem_cons, List.not_mem_nil, or_false] at hx
    rcases hx with hx | rfl | rfl | rfl | rfl | rfl
    · exact (exact_det fma).1 x hx
    all_goals exact normal_of _ (by norm_num)
  · rw [Float.invM, (exact_det fma).2, a]
    dsimp only
    rw [fl_lit (320 * (1 / 65536)) 5 (-10) (by norm_num) (by norm_num),
      fl_lit (- -128 * (1 / 65536)) 1 (-9) (by norm_num) (by norm_num),
      fl_lit (256 * (1 / 65536)) 1 (-8) (by norm_num) (by norm_num)]
    norm_num

lemma exact_det' (fma : Bool) : (∀ x ∈ detR fma ⟨5 / 1024, 1 / 512, 1 / 512, 1 / 256⟩, Normal x) ∧
    Float.detM fma ⟨5 / 1024, 1 / 512, 1 / 512, 1 / 256⟩ = 1 / 65536 := by
  have a := fl_lit (5 / 1024 * (1 / 256)) 5 (-18) (by norm_num) (by norm_num)
  have b := fl_lit (1 / 512 * (1 / 512)) 1 (-18) (by norm_num) (by norm_num)
  have c := fl_lit (5 / 1024 * (1 / 256) - 1 / 512 * (1 / 512)) 1 (-16) (by norm_num) (by norm_num)
  constructor
  · cases fma <;> simp only [detR, a, b, if_true, if_false, Bool.false_eq_true, List.mem_cons, List.not_mem_nil, or_false,
      forall_eq_or_imp, forall_eq]
    · exact ⟨normal_of _ (by norm_num), normal_of _ (by norm_num), normal_of _ (by norm_num)⟩
    · exact ⟨normal_of _ (by norm_num), normal_of _ (by norm_num)⟩
  · rw [Float.detM]
    dsimp only
    rw [a, b, c, ite_self]
    norm_num

lemma exact_sqrt : Real.sqrt (1 / 65536) = 1 / 256 := by
  rw [show (1 / 65536 : ℝ) = (1 / 256) ^ 2 by norm_num, Real.sqrt_sq (by norm_num)]

lemma fl_between (x a b : ℝ) (ha : 0 < a) (h1 : a ≤ x) (h2 : x ≤ b) : a / 2 ≤ fl 24 x ∧ fl 24 x ≤ 2 * b := by
  have e := abs_le.1 (fl_err 24 x)
  rw [abs_of_pos (by linarith)] at e
  constructor <;> linarith [e.1, e.2]

lemma invTwoPi_between : 1 / 16 ≤ invTwoPi ∧ invTwoPi ≤ 1 := by
  have h := invTwoPi_ap.2.1
  have h3 := Real.two_le_pi
  have h4 := Real.pi_le_four
  have p : (1 : ℝ) / 8 ≤ 1 / (2 * Real.pi) := by
    apply one_div_le_one_div_of_le <;> linarith
  have q : 1 / (2 * Real.pi) ≤ (1 : ℝ) / 4 := by
    apply one_div_le_one_div_of_le <;> linarith
  have w : w1 ^ 3 - 1 ≤ 1 / 2 := by rw [w1]; norm_num
  have := abs_le.1 (h.trans (mul_le_mul_of_nonneg_right w (show 0 ≤ 1 / (2 * Real.pi) by linarith)))
  constructor <;> linarith [this.1, this.2]

lemma exact_amp (fma : Bool) : ∀ x ∈ ampR fma ⟨5 / 1024, 1 / 512, 1 / 512, 1 / 256⟩ exactParts, Normal x := by
  have a := fl_lit (1 / 256) 1 (-8) (by norm_num) (by norm_num)
  have b := fl_lit (2 * (3 / 4)) 3 (-1) (by norm_num) (by norm_num)
  have c := fl_lit (2 * (3 / 4) * (1 / 256)) 3 (-9) (by norm_num) (by norm_num)
  have hi := invTwoPi_between
  have t := fl_between (2 * (3 / 4) * (1 / 256) * invTwoPi) (3 / 8192) (3 / 512) (by norm_num) (by linarith) (by linarith)
  have u := fl_between (fl 24 (2 * (3 / 4) * (1 / 256) * invTwoPi) * 5) (3 / 4096) 1 (by norm_num) (by linarith) (by linarith)
  intro x hx
  simp only [ampR, exactParts, (exact_det' fma).2, exact_sqrt, a, b, c, List.mem_append, List.mem_cons, List.not_mem_nil,
    or_false] at hx
  rcases hx with hx | rfl | rfl | rfl | rfl | rfl | rfl
  · exact (exact_det' fma).1 x hx
  · exact normal_of _ (by norm_num)
  · exact normal_of _ (by norm_num)
  · exact normal_of _ (by norm_num)
  · apply normal_of
    rw [abs_of_pos (by linarith)]
    norm_num at *
    constructor <;> linarith
  · apply normal_of
    rw [abs_of_pos (by linarith)]
    norm_num at *
    constructor <;> linarith
  · apply normal_of
    rw [abs_of_pos (by linarith)]
    norm_num at *
    constructor <;> linarith

lemma exact_shape (fma : Bool) : ∀ x ∈ shapeR fma Real.cos Real.sin exactParts, Normal x := by
  intro x hx
  rw [shapeR, exact_tM, exact_cov, (exact_aat fma).2] at hx
  simp only [exactParts] at hx
  rw [exact_rot, (exact_R fma).2, exact_scale, exact_smul] at hx
  simp only [List.mem_append] at hx
  rcases hx with ((((((hx | hx) | hx) | hx) | hx) | hx) | hx)
  · exact (exact_R fma).1 x hx
  · simp only [List.mem_cons, List.not_mem_nil, or_false] at hx
    subst hx
    exact normal_of _ (by norm_num)
  · exact (exact_T fma).1 x hx
  · exact (exact_aat fma).1 x (by simpa only [List.mem_append] using hx)
  · simp only [List.mem_cons, List.not_mem_nil, or_false] at hx
    rcases hx with rfl | rfl | rfl | rfl <;> exact normal_of _ (by norm_num)
  · simp only [List.mem_cons, List.not_mem_nil, or_false] at hx
    rcases hx with rfl | rfl | rfl | rfl <;> exact normal_of _ (by norm_num)
  · exact (exact_inv fma).1 x hx

/-- Cosine and sine without errors. -/
noncomputable def exactFn (h : ℝ → ℝ) : Val → Val
  | .num x => .num (h x)
  | _ => .nan

/-- The hypotheses of `C154_same`, `C154_source` and `C154_range` can be met. -/
theorem C154_same_witness (fma : Bool) : TrigKeeps (exactFn Real.cos) (exactFn Real.sin) ∧ Keeps (exactFn Real.exp) ∧
    ExpNear (exactFn Real.exp) ∧
    buildGauss fma (exactFn Real.cos) (exactFn Real.sin) (ofParts exactParts ⟨1, 2, 3, 4⟩ (10, 20) (1, 2) 3 5 (1 / 2) (-1 / 2)) =
      ofReal (Float.buildGauss fma Real.cos Real.sin exactParts (37 / 2) (75 / 2)) := by
  refine ⟨⟨rfl, rfl, fun s => ⟨rfl, rfl⟩⟩, rfl, fun x _ _ => ⟨Real.exp x, rfl, ?_⟩, ?_⟩
  · rw [sub_self, abs_zero]; positivity
  have f1 := fl_lit (3 - 1) 2 0 (by norm_num) (by norm_num)
  have f2 := fl_lit (5 - 2) 3 0 (by norm_num) (by norm_num)
  have n1 : (3 - 1 : ℝ) = 2 := by norm_num
  have n2 : (5 - 2 : ℝ) = 3 := by norm_num
  have a := avR_int fma 1 2 2 3 2 6 (by norm_num) (by norm_num) (by norm_num) (by norm_num)
  have b := avR_int fma 3 4 2 3 6 12 (by norm_num) (by norm_num) (by norm_num) (by norm_num)
  have g1 := fl_lit (((2 + 6 : ℤ) : ℝ) + 10) 18 0 (by norm_num) (by norm_num)
  have g2 := fl_lit (((6 + 12 : ℤ) : ℝ) + 20) 38 0 (by norm_num) (by norm_num)
  have g3 := fl_lit (((2 + 6 : ℤ) : ℝ) + 10 + 1 / 2) 37 (-1) (by norm_num) (by norm_num)
  have g4 := fl_lit (((6 + 12 : ℤ) : ℝ) + 20 + -1 / 2) 75 (-1) (by norm_num) (by norm_num)
  have key := C154_same fma (exactFn Real.cos) (exactFn Real.sin) Real.cos Real.sin exactParts ⟨1, 2, 3, 4⟩ (10, 20) (1, 2) 3 5
    (1 / 2) (-1 / 2) rfl rfl (by norm_num [exactParts]) (by rw [exact_cov, (exact_det fma).2]; norm_num)
    (by rw [exact_cov, (exact_inv fma).2, (exact_det' fma).2]; norm_num) (exact_shape fma)
    (by rw [exact_cov, (exact_inv fma).2]; exact exact_amp fma)
    ⟨normal_of _ (by norm_num), normal_of _ (by norm_num)⟩
    (by
      dsimp only
      rw [f1, f2, n1, n2]
      intro x hx
      simp only [cenR, a.2, g1, List.mem_append, List.mem_cons, List.not_mem_nil, or_false] at hx
      rcases hx with hx | rfl | rfl
      · exact a.1 x hx
      all_goals exact normal_of _ (by norm_num))
    (by
      dsimp only
      rw [f1, f2, n1, n2]
      intro x hx
      simp only [cenR, b.2, g2, List.mem_append, List.mem_cons, List.not_mem_nil, or_false] at hx
      rcases hx with hx | rfl | rfl
      · exact b.1 x hx
      all_goals exact normal_of _ (by norm_num))
  rw [key]
  dsimp only
  rw [f1, f2, n1, n2, a.2, b.2, g1, g2, g3, g4]
  congr 2 <;> norm_num

/-- `C154_finite` with a gaussian and two pixels. -/
theorem C154_finite_witness (fma : Bool) :
    ∃ C : ℝ, total fma (exactFn Real.exp) [ofReal ⟨100, 3, 4, 1 / 2, 1 / 4, 1 / 16⟩]
      [⟨.num 2, .num 5, .num 7, .num 3⟩, ⟨.num 3, .num 4, .num 90, .num 1⟩] = .num C := by
  refine C154_finite fma (exactFn Real.exp) (C154_same_witness fma).2.2.1 [⟨100, 3, 4, 1 / 2, 1 / 4, 1 / 16⟩]
    [(2, 5, 7, 3), (3, 4, 90, 1)] ?_ (by simp) (by simp) ?_ ?_
  · intro p hp g hg
    simp only [List.mem_cons, List.not_mem_nil, or_false] at hp hg
    subst hg
    rcases hp with rfl | rfl <;> norm_num [abs_le]
  · intro p hp
    simp only [List.mem_cons, List.not_mem_nil, or_false] at hp
    rcases hp with rfl | rfl <;> norm_num [abs_le]
  · intro p hp
    simp only [List.mem_cons, List.not_mem_nil, or_false] at hp
    rcases hp with rfl | rfl <;> norm_num [abs_le]

/-- `C154_far`: a source at infinity is lost on one side of its row and poisons the pixels of the row. -/
theorem C154_far_witness (fma : Bool) (data : Val) (ycen : ℝ) (hy : ycen = 4) :
    residual fma (exactFn Real.exp) [⟨.num 5, .inf false, .num ycen, .num 1, .num 1, .num (-1)⟩] (.num 2) (.num 4) data = .nan ∧
    residual fma (exactFn Real.exp) [⟨.num 5, .inf false, .num ycen, .num 1, .num 1, .num (-1)⟩] (.num 2) (.num 5) data = data := by
  subst hy
  have h0 := fl_lit (4 - 4) 0 0 (by norm_num) (by norm_num)
  have h1 := fl_lit (5 - 4) 1 0 (by norm_num) (by norm_num)
  have s0 : sub (.num (4 : ℝ)) (.num 4) = .num 0 := by
    have := rnd_normal (x := 4 - 4) (by rw [sub_self]; exact normal_zero)
    rw [h0] at this
    simpa [sub, add, neg, addE, sub_eq_add_neg] using this
  have s1 : sub (.num (5 : ℝ)) (.num 4) = .num 1 := by
    have := rnd_normal (x := 5 - 4) (normal_of _ (by norm_num))
    rw [h1] at this
    norm_num at this
    norm_num [sub, add, neg, addE]
    exact this
  have m0 : ∀ x : ℝ, mul (.num x) (.num (0 : ℝ)) = .num 0 := by
    intro x
    have := rnd_normal (x := 0) normal_zero
    have f := fl_lit 0 0 0 (by norm_num) (by norm_num)
    rw [f] at this
    simpa [mul, mulE] using this
  have m1 : ∀ k : ℤ, |k| ≤ 2 ^ 20 → mul (.num (k : ℝ)) (.num (1 : ℝ)) = .num k := by
    intro k hk
    have := rnd_normal (x := k) (normal_int k (by omega))
    rw [fl_int k (by omega)] at this
    simpa [mul, mulE] using this
  constructor
  · exact (C154_far fma _ (C154_same_witness fma).2.1 [] [] _ false 1 1 (-1) 2 0 0 0 (.num 4) data rfl rfl rfl rfl one_pos s0
      (m0 _) (m0 _)).1 (.inr (.inl rfl))
  · exact (C154_far fma _ (C154_same_witness fma).2.1 [] [] _ false 1 1 (-1) 2 1 (-1) 1 (.num 5) data rfl rfl rfl rfl one_pos s1
      (by simpa using m1 (-1) (by norm_num)) (by simpa using m1 1 (by norm_num))).2 (by norm_num)

end Forcepho.Float.Special
