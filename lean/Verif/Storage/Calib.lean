import Verif.Storage.Ingest
import Verif.Storage.Files
import Mathlib.Analysis.SpecialFunctions.Pow.Real
import Mathlib.Tactic.NormNum
import Mathlib.Tactic.Ring

/-!
# C112 and C113: flux calibration, astrometry loaded up front, and the table of exposures

Model of `PixelStore.flux_calibration` (forcepho/patches/storage.py:272-282), `MetaStore.__init__` and
`populate_wcs` (storage.py:313-351) and `MetaStore.to_table` (storage.py:481-514).
-/

set_option autoImplicit false
set_option linter.unusedSectionVars false

namespace Forcepho.Storage

/-! ## Calibration -/

/-- `flux_calibration` (storage.py:272-282): the factor and the name of the unit; the argument is the keyword
`ABMAG`, if present. -/
noncomputable def fluxCalibration (abmag : Option ℝ) : ℝ × String :=
  match abmag with
  | some zp => (1e9 * (10 : ℝ) ^ ((0.4 : ℝ) * (8.9 - zp)), "nJy")
  | none => (1, "counts")

/-- The factor `add_exposure` applies (storage.py:194-201). -/
noncomputable def convOf (doFluxcal : Bool) (abmag : Option ℝ) : Option ℝ :=
  if doFluxcal then some (fluxCalibration abmag).1 else none

/-- Specification: the counts of a source of magnitude `m` in an image of zero point `zp`, the magnitude of one
count. -/
noncomputable def countsOf (zp m : ℝ) : ℝ := (10 : ℝ) ^ ((zp - m) / 2.5)

/-- Specification: the flux in nanojansky of a source of AB magnitude `m`, with the zero point at 31.4. -/
noncomputable def nanojansky (m : ℝ) : ℝ := (10 : ℝ) ^ ((31.4 - m) / 2.5)

lemma calib_factor (zp m x : ℝ) :
    x * countsOf zp m * (fluxCalibration (some zp)).1 = x * nanojansky m := by
  have h9 : (1e9 : ℝ) = (10 : ℝ) ^ (9 : ℝ) := by
    rw [show (9 : ℝ) = ((9 : ℕ) : ℝ) by norm_num, Real.rpow_natCast]; norm_num
  unfold countsOf fluxCalibration nanojansky
  simp only
  rw [h9, ← Real.rpow_add (by norm_num : (0 : ℝ) < 10), mul_assoc, ← Real.rpow_add (by norm_num : (0 : ℝ) < 10)]
  congr 2
  ring

/-- C112. If a usable pixel of an exposure with zero point `zp` holds a background and the fraction `x` of the
counts of a source of magnitude `m`, the calibrated store holds this fraction of the flux of the source in
nanojansky, whatever the zero point; value over uncertainty is that of the image. -/
theorem C112_zero_point {t : ImSet ℝ} {s : Nat} {nside : Nat × Nat} {bitmask : Nat} (zp m x : ℝ)
    (hmask : ∀ m, t.mask = .int m → bitmask ≠ 0)
    (hx : s ∣ t.nx) (hy : s ∣ t.ny) (h1 : t.nx = nside.1) (h2 : t.ny = nside.2)
    (hnx : t.nx ≤ 32768) (hny : t.ny ≤ 32768)
    (ii jj k i j : Nat) (hi : at3 (pixelCoordinates s t.nx t.ny).1 ii jj k = some (some i))
    (hj : at3 (pixelCoordinates s t.nx t.ny).2 ii jj k = some (some j))
    (hus : ¬ Unusable t bitmask i j) (him : t.im i j = some (bkgAt t i j + x * countsOf zp m)) :
    ∃ sp t' w e, ingest s nside bitmask (convOf true (some zp)) t = .ok (sp, t') ∧
      at3 sp ii jj k = some (x * nanojansky m) ∧ at3 sp ii jj (s ^ 2 + k) = some w ∧
      t.ierr i j = some e ∧ x * nanojansky m * w = x * countsOf zp m * e := by
  obtain ⟨sp, t', h, hp⟩ := C39_weights_partial (conv := convOf true (some zp)) hmask hx hy h1 h2 hnx hny
  obtain ⟨v, w, hv, hw, ho⟩ := hp ii jj k i j hi hj
  obtain ⟨y, e, e1, e2, -, e3, e4⟩ := ho.usable hus
  rw [him] at e1
  injection e1 with e1
  have hf : factor (convOf true (some zp)) = (fluxCalibration (some zp)).1 := rfl
  have hpos : 0 < (fluxCalibration (some zp)).1 := by
    unfold fluxCalibration
    simp only
    positivity
  have hval : v = x * nanojansky m := by
    rw [e3, ← e1, add_sub_cancel_left, hf, calib_factor]
  refine ⟨sp, t', w, e, h, hval ▸ hv, hw, e2, ?_⟩
  rw [← hval, e3, e4, ← e1, add_sub_cancel_left, hf]
  field_simp

/-- A store of one pixel in an exposure of zero point 28.9, which holds all the counts of a source of magnitude
28.9 over a background of 3: ten nanojansky. -/
example : ∃ sp t' w e, ingest 1 (1, 1) 0 (convOf true (some 28.9))
      (⟨1, 1, fun _ _ => some (3 + 1), fun _ _ => some 2, .absent, some fun _ _ => some 3⟩ : ImSet ℝ) = .ok (sp, t') ∧
    at3 sp 0 0 0 = some (1 * nanojansky 28.9) ∧ at3 sp 0 0 (1 ^ 2 + 0) = some w ∧ some 2 = some e ∧
    1 * nanojansky 28.9 * w = 1 * countsOf 28.9 28.9 * e := by
  refine C112_zero_point (t := ⟨1, 1, fun _ _ => some (3 + 1), fun _ _ => some 2, .absent,
    some fun _ _ => some 3⟩) 28.9 28.9 1 (by simp) ?_ ?_ rfl rfl ?_ ?_ 0 0 0 0 0 ?_ ?_ ?_ ?_
  · simp
  · simp
  · simp
  · simp
  · decide +kernel
  · decide +kernel
  · simp [Unusable, Flagged]
  · simp [bkgAt, countsOf]

/-- C112, the factor itself: never zero, one step of magnitude is a factor, the unit says whether the header
had a zero point, and one count at the zero point 31.4 is one nanojansky. -/
theorem C112_factor (zp : ℝ) :
    0 < (fluxCalibration (some zp)).1 ∧ (fluxCalibration (some zp)).2 = "nJy" ∧
    (fluxCalibration (some (zp + 2.5))).1 = (fluxCalibration (some zp)).1 / 10 ∧
    (fluxCalibration (some 31.4)).1 = 1 ∧ (fluxCalibration none).2 = "counts" := by
  have h9 : (1e9 : ℝ) = (10 : ℝ) ^ (9 : ℝ) := by
    rw [show (9 : ℝ) = ((9 : ℕ) : ℝ) by norm_num, Real.rpow_natCast]; norm_num
  refine ⟨?_, rfl, ?_, ?_, rfl⟩
  · unfold fluxCalibration
    simp only
    positivity
  · unfold fluxCalibration
    simp only
    have : (0.4 : ℝ) * (8.9 - (zp + 2.5)) = 0.4 * (8.9 - zp) - 1 := by ring
    rw [this, Real.rpow_sub (by norm_num : (0 : ℝ) < 10), Real.rpow_one, mul_div_assoc]
  · unfold fluxCalibration
    simp only
    rw [h9, ← Real.rpow_add (by norm_num : (0 : ℝ) < 10)]
    norm_num

/-- C112 fails when an exposure has no zero point: calibration is applied without error, and the flux of the
same source is that of the calibrated exposures only if the counts happen to be nanojansky. -/
theorem C112_refuted_no_zero_point (zp m : ℝ) :
    countsOf zp m * (fluxCalibration none).1 = nanojansky m ↔ zp = 31.4 := by
  unfold countsOf nanojansky fluxCalibration
  simp only [mul_one]
  constructor
  · intro h
    have h2 := (Real.strictMono_rpow_of_base_gt_one (by norm_num : (1 : ℝ) < 10)).injective h
    have h3 : zp - m = 31.4 - m := (div_left_inj' (by norm_num : (2.5 : ℝ) ≠ 0)).1 h2
    linarith
  · rintro rfl; rfl

/-! ## Astrometry loaded up front -/

section Wcs
variable {H W : Type}

/-- The astrometric solution of one exposure in `populate_wcs` (storage.py:344-350); `none` is the `KeyError`
of an exposure that is not in the file of solutions. -/
def oneWcs (mk : H → W) (tree : Option (Dict (Dict W))) (band exp : String) (hdr : H) : Option W :=
  match tree with
  | some t => (dget t band).bind fun e => dget e exp
  | none => some (mk hdr)

/-- The inner loop of `populate_wcs` (storage.py:343-351). -/
def populateBand (mk : H → W) (tree : Option (Dict (Dict W))) (band : String) : Dict H → Dict W → Option (Dict W)
  | [], out => some out
  | (exp, hdr) :: rest, out =>
    (oneWcs mk tree band exp hdr).bind fun w => populateBand mk tree band rest (dset out exp w)

/-- The outer loop of `populate_wcs` (storage.py:341-351). -/
def populate (mk : H → W) (tree : Option (Dict (Dict W))) : Dict (Dict H) → Dict (Dict W) → Option (Dict (Dict W))
  | [], out => some out
  | (band, exps) :: rest, out =>
    (populateBand mk tree band exps []).bind fun d => populate mk tree rest (dset out band d)

/-- `MetaStore.__init__` (storage.py:313-329) for the headers read from the file; `file` are the solutions in the
file beside it, if there is one. -/
def openMeta (mk : H → W) (headers : Dict (Dict H)) (file : Option (Dict (Dict W))) (useGwcs loadAll : Bool) :
    Option (MetaState H W) :=
  let tree := if useGwcs then file else none
  if loadAll then (populate mk tree headers []).map fun w => ⟨headers, w⟩
  else some ⟨headers, []⟩

lemma populateBand_spec (mk : H → W) (tree : Option (Dict (Dict W))) (band : String) :
    ∀ (exps : Dict H) (out d : Dict W), Uniq exps → populateBand mk tree band exps out = some d →
    ∀ e, dget d e = match dget exps e with
      | some hdr => oneWcs mk tree band e hdr
      | none => dget out e := by
  intro exps
  induction exps with
  | nil => intro out d _ h e; injection h with h; subst h; rfl
  | cons x rest ih =>
    obtain ⟨exp, hdr⟩ := x
    intro out d hu h e
    rw [populateBand] at h
    obtain ⟨w, hw, h⟩ := Option.bind_eq_some_iff.1 h
    have hu' : Uniq rest := (List.nodup_cons.mp hu).2
    have hni : exp ∉ rest.map (·.1) := (List.nodup_cons.mp hu).1
    have := ih _ _ hu' h e
    rw [this]
    by_cases he : exp = e
    · subst he
      have hn : dget rest exp = none := by
        cases hd : dget rest exp with
        | none => rfl
        | some v => exact absurd (List.mem_map.mpr ⟨_, dget_mem hd, rfl⟩) hni
      rw [hn]
      simp [dget, dget_dset, hw]
    · have h1 : dget ((exp, hdr) :: rest) e = dget rest e := by rw [dget, if_neg he]
      rw [h1]
      cases dget rest e with
      | some v => rfl
      | none => simp only; rw [dget_dset, if_neg (fun h => he h.symm)]

lemma populate_spec (mk : H → W) (tree : Option (Dict (Dict W))) :
    ∀ (headers : Dict (Dict H)) (out w : Dict (Dict W)), Uniq headers → (∀ x ∈ headers, Uniq x.2) →
    populate mk tree headers out = some w →
    ∀ b e hdr, getMeta headers b e = some hdr → (dget w b).bind (fun x => dget x e) = oneWcs mk tree b e hdr := by
  have outer : ∀ (headers : Dict (Dict H)) (out w : Dict (Dict W)) (b : String), b ∉ headers.map (·.1) →
      populate mk tree headers out = some w → dget w b = dget out b := by
    intro headers
    induction headers with
    | nil => intro out w b _ h; injection h with h; rw [h]
    | cons x rest ih =>
      obtain ⟨band, exps⟩ := x
      intro out w b hb h
      rw [populate] at h
      obtain ⟨d, hd, h⟩ := Option.bind_eq_some_iff.1 h
      simp only [List.map_cons, List.mem_cons, not_or] at hb
      rw [ih _ _ b hb.2 h, dget_dset, if_neg hb.1]
  intro headers
  induction headers with
  | nil => intro out w _ _ _ b e hdr hg; simp [getMeta, dget] at hg
  | cons x rest ih =>
    obtain ⟨band, exps⟩ := x
    intro out w hu hin h b e hdr hg
    rw [populate] at h
    obtain ⟨d, hd, h⟩ := Option.bind_eq_some_iff.1 h
    have hu' : Uniq rest := (List.nodup_cons.mp hu).2
    have hni : band ∉ rest.map (·.1) := (List.nodup_cons.mp hu).1
    by_cases hb : band = b
    · subst hb
      have hg' : dget exps e = some hdr := by simpa [getMeta, dget] using hg
      rw [outer rest _ w band hni h, dget_dset, if_pos rfl, Option.bind_some]
      rw [populateBand_spec mk tree band exps [] d (hin _ (List.mem_cons_self ..)) hd e, hg']
    · refine ih _ w hu' (fun y hy => hin y (List.mem_cons_of_mem _ hy)) h b e hdr ?_
      have h1 : dget ((band, exps) :: rest) b = dget rest b := by rw [dget, if_neg hb]
      rw [getMeta, h1] at hg
      exact hg

lemma populateBand_none (mk : H → W) (band : String) : ∀ (exps : Dict H) (out : Dict W),
    ∃ d, populateBand mk none band exps out = some d := by
  intro exps
  induction exps with
  | nil => intro out; exact ⟨out, rfl⟩
  | cons x rest ih => intro out; exact ih _

lemma populate_none (mk : H → W) : ∀ (headers : Dict (Dict H)) (out : Dict (Dict W)),
    ∃ w, populate mk none headers out = some w := by
  intro headers
  induction headers with
  | nil => intro out; exact ⟨out, rfl⟩
  | cons x rest ih =>
    obtain ⟨band, exps⟩ := x
    intro out
    obtain ⟨d, hd⟩ := populateBand_none mk band exps []
    obtain ⟨w, hw⟩ := ih (dset out band d)
    refine ⟨w, ?_⟩
    rw [populate, hd]
    exact hw

/-- The solution a coverage query uses for an exposure that the state has cached. -/
lemma wcsOf_cached (mk : H → W) (m : MetaState H W) (b e : String) (hdr : H) (w : W)
    (hg : getMeta m.headers b e = some hdr) (hc : (dget m.wcs b).bind (fun x => dget x e) = some w) :
    (m.wcsOf mk b e).map (·.1) = some w := by
  obtain ⟨x, hx, hxe⟩ := Option.bind_eq_some_iff.1 hc
  unfold MetaState.wcsOf
  rw [hg]
  simp [hx, hxe]

lemma wcsOf_empty (mk : H → W) (headers : Dict (Dict H)) (b e : String) :
    ((⟨headers, []⟩ : MetaState H W).wcsOf mk b e).map (·.1) = (getMeta headers b e).map mk := by
  unfold MetaState.wcsOf
  cases getMeta headers b e with
  | none => rfl
  | some hdr => simp [dget, dset]

/-- C113 (partial). Without a file of solutions, or if it is not asked for, opening a metadata store always
succeeds and coverage queries use the astrometry of the header, for every exposure, whether solutions were
loaded up front or not.  Missing: stores with a file of solutions, refuted below. -/
theorem C113_load_all_partial (mk : H → W) (headers : Dict (Dict H)) (hu : Uniq headers)
    (hin : ∀ x ∈ headers, Uniq x.2) (file : Option (Dict (Dict W))) (useGwcs loadAll : Bool)
    (hno : file = none ∨ useGwcs = false) :
    ∃ m, openMeta mk headers file useGwcs loadAll = some m ∧
      ∀ b e, (m.wcsOf mk b e).map (·.1) = (getMeta headers b e).map mk := by
  have htree : (if useGwcs then file else none) = none := by
    rcases hno with h | h
    · rw [h]; split <;> rfl
    · rw [h]; rfl
  cases loadAll with
  | false => exact ⟨_, rfl, fun b e => wcsOf_empty mk headers b e⟩
  | true =>
    obtain ⟨w, hw⟩ := populate_none mk headers []
    refine ⟨⟨headers, w⟩, ?_, ?_⟩
    · simp only [openMeta, htree, hw, if_true, Option.map_some]
    · intro b e
      cases hg : getMeta headers b e with
      | none => simp [MetaState.wcsOf, hg]
      | some hdr =>
        exact wcsOf_cached mk _ b e hdr (mk hdr) hg (populate_spec mk none headers [] w hu hin hw b e hdr hg)

/-- C113 fails for a file of solutions: asked for and loaded up front, queries use the solution in the file;
asked for and not loaded up front (the default), they use that of the header. -/
theorem C113_gwcs_refuted (mk : H → W) (headers : Dict (Dict H)) (hu : Uniq headers)
    (hin : ∀ x ∈ headers, Uniq x.2) (file : Dict (Dict W)) (b e : String) (hdr : H) (w : W)
    (hg : getMeta headers b e = some hdr) (hw : (dget file b).bind (fun x => dget x e) = some w) (hne : w ≠ mk hdr) :
    (∀ m, openMeta mk headers (some file) true true = some m → (m.wcsOf mk b e).map (·.1) = some w) ∧
    (∃ m, openMeta mk headers (some file) true false = some m ∧ (m.wcsOf mk b e).map (·.1) = some (mk hdr) ∧
      (m.wcsOf mk b e).map (·.1) ≠ some w) := by
  constructor
  · intro m h
    simp only [openMeta, if_true] at h
    obtain ⟨d, hd, rfl⟩ := Option.map_eq_some_iff.1 h
    refine wcsOf_cached mk _ b e hdr w hg ?_
    have := populate_spec mk (some file) headers [] d hu hin hd b e hdr hg
    rw [this]
    exact hw
  · refine ⟨⟨headers, []⟩, rfl, ?_, ?_⟩
    · rw [wcsOf_empty, hg]; rfl
    · rw [wcsOf_empty, hg]
      intro h
      injection h with h
      exact hne h.symm

/-- One exposure with header 1 whose solution in the file is 7. -/
example :
    ((openMeta (fun h : Nat => h) [("F200W", [("a", 1)])] (some [("F200W", [("a", 7)])]) true true).bind
      fun m => (m.wcsOf id "F200W" "a").map (·.1)) = some 7 ∧
    ((openMeta (fun h : Nat => h) [("F200W", [("a", 1)])] (some [("F200W", [("a", 7)])]) true false).bind
      fun m => (m.wcsOf id "F200W" "a").map (·.1)) = some 1 := by decide

end Wcs

/-! ## The table of exposures -/

section Table
variable {V C : Type}

/-- One row of `to_table` (storage.py:501-510): `conv` stores a keyword in a column, `none` if numpy refuses it
(the exception is swallowed); a header without reference position raises. -/
def tableRow (cols : List String) (upper : String → String) (conv : String → V → Option C) (zero : String → C)
    (hdr : Dict V) : Option (Dict C) :=
  let row := cols.map fun c => (c, ((dget hdr (upper c)).bind (conv c)).getD (zero c))
  (dget hdr "CRVAL1").bind fun a => (conv "ra" a).bind fun a' =>
    (dget hdr "CRVAL2").bind fun d => (conv "dec" d).map fun d' => dset (dset row "ra" a') "dec" d'

/-- `to_table` (storage.py:481-512): the rows in the order of bands and exposures. -/
def toTable (cols : List String) (upper : String → String) (conv : String → V → Option C) (zero : String → C)
    (headers : Dict (Dict (Dict V))) : Option (List (Dict C)) :=
  (headers.flatMap fun b => b.2.map (·.2)).mapM (tableRow cols upper conv zero)

lemma mapM_some {A B : Type} (f : A → Option B) : ∀ (l : List A) (out : List B), l.mapM f = some out →
    out.length = l.length ∧ ∀ (i : Nat) (a : A), l[i]? = some a → ∃ b : B, f a = some b ∧ out[i]? = some b := by
  intro l
  induction l with
  | nil => intro out h; simp at h; subst h; simp
  | cons a l ih =>
    intro out h
    rw [List.mapM_cons] at h
    cases hf : f a with
    | none => rw [hf] at h; simp at h
    | some b =>
      rw [hf] at h
      cases hl : l.mapM f with
      | none => rw [hl] at h; simp at h
      | some bs =>
        rw [hl] at h
        simp at h
        subst h
        obtain ⟨h1, h2⟩ := ih bs hl
        refine ⟨by simp [h1], ?_⟩
        intro i x hx
        cases i with
        | zero => simp at hx; subst hx; exact ⟨b, hf, by simp⟩
        | succ i => simp at hx; simpa using h2 i x hx

lemma dget_map {D : Type} (f : String → D) : ∀ (cols : List String) (c : String), c ∈ cols →
    dget (cols.map fun c => (c, f c)) c = some (f c) := by
  intro cols
  induction cols with
  | nil => intro c h; simp at h
  | cons a cols ih =>
    intro c h
    by_cases hac : a = c
    · subst hac; simp [dget]
    · rw [List.map_cons, dget, if_neg hac]
      exact ih c ((List.mem_cons.mp h).resolve_left (fun h => hac h.symm))

/-- C113. The table has one row per exposure of the store.  The row of an exposure, found by counting the
exposures of earlier bands and earlier exposures of its band, holds the position of its header and, in every
other column, the keyword of its own header, or the empty value if the keyword is absent or does not fit. -/
theorem C113_table (cols : List String) (upper : String → String) (conv : String → V → Option C) (zero : String → C)
    (headers : Dict (Dict (Dict V))) (rows : List (Dict C))
    (h : toTable cols upper conv zero headers = some rows) :
    rows.length = nexp headers ∧
    ∀ (k j : Nat) (band exp : String) (exps : Dict (Dict V)) (hdr : Dict V), headers[k]? = some (band, exps) →
      exps[j]? = some (exp, hdr) →
      ∃ row : Dict C, rows[((headers.take k).map fun b => b.2.length).sum + j]? = some row ∧
        (∃ a, dget hdr "CRVAL1" = some a ∧ dget row "ra" = conv "ra" a) ∧
        (∃ d, dget hdr "CRVAL2" = some d ∧ dget row "dec" = conv "dec" d) ∧
        ∀ c ∈ cols, c ≠ "ra" → c ≠ "dec" →
          dget row c = some (((dget hdr (upper c)).bind (conv c)).getD (zero c)) := by
  obtain ⟨h1, h2⟩ := mapM_some _ _ _ h
  constructor
  · rw [h1, nexp_eq, List.length_flatMap]
    simp
  · intro k j band exp exps hdr hk hj
    have hflat : ∀ (hs : Dict (Dict (Dict V))) (k : Nat), hs[k]? = some (band, exps) →
        (hs.flatMap fun b => b.2.map (·.2))[((hs.take k).map fun b => b.2.length).sum + j]? = some hdr := by
      intro hs
      induction hs with
      | nil => intro k hk; simp at hk
      | cons x hs ih =>
        intro k hk
        cases k with
        | zero =>
          simp at hk
          subst hk
          have hjl : j < exps.length := by rw [List.getElem?_eq_some_iff] at hj; exact hj.1
          rw [List.flatMap_cons, List.getElem?_append_left (by simpa using hjl)]
          simp [hj]
        | succ k =>
          simp only [List.getElem?_cons_succ] at hk
          rw [List.flatMap_cons, List.take_succ_cons, List.map_cons, List.sum_cons,
            List.getElem?_append_right (by simp; omega)]
          have := ih k hk
          rw [← this]
          congr 1
          simp
          omega
    obtain ⟨row, hr, hi⟩ := h2 _ _ (hflat headers k hk)
    refine ⟨row, hi, ?_⟩
    unfold tableRow at hr
    obtain ⟨a, ha, hr⟩ := Option.bind_eq_some_iff.1 hr
    obtain ⟨a', ha', hr⟩ := Option.bind_eq_some_iff.1 hr
    obtain ⟨d, hd, hr⟩ := Option.bind_eq_some_iff.1 hr
    obtain ⟨d', hd', rfl⟩ := Option.map_eq_some_iff.1 hr
    refine ⟨⟨a, ha, ?_⟩, ⟨d, hd, ?_⟩, ?_⟩
    · rw [dget_dset, if_neg (by decide), dget_dset, if_pos rfl, ha']
    · rw [dget_dset, if_pos rfl, hd']
    · intro c hc hra hdec
      rw [dget_dset, if_neg hdec, dget_dset, if_neg hra]
      exact dget_map (fun c => ((dget hdr (upper c)).bind (conv c)).getD (zero c)) cols c hc

/-- Two exposures in two bands; the second has no keyword `FILTER`. -/
example : toTable ["filter", "ra", "dec"] (fun c => if c = "filter" then "FILTER" else c) (fun _ v => some v) (fun _ => 0)
    [("F200W", [("a", [("FILTER", 200), ("CRVAL1", 1), ("CRVAL2", 2)])]), ("F277W", [("b", [("CRVAL1", 3), ("CRVAL2", 4)])])]
    = some [[("filter", 200), ("ra", 1), ("dec", 2)], [("filter", (0 : Nat)), ("ra", 3), ("dec", 4)]] := by decide

end Table

end Forcepho.Storage
