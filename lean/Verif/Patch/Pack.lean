import Verif.Patch.Meta

/-! # Property C142: packing a scene, as a sequence of effects

`Patch.pack_meta` calls its four helpers one after the other on a patch whose attributes may hold the
metadata of an earlier scene.  Here every step is a function on the attributes of the patch and on
the scene, so that what is left behind when a step raises can be stated too. -/

set_option autoImplicit false
set_option linter.unusedSectionVars false

namespace Forcepho.Patch

section
variable {K : Type} [Field K] [LinearOrder K]

/-- A source of a scene, as far as packing metadata is concerned (sources.py:195-280): position,
the `fixed` flag, and the radii of its gaussians. -/
structure Src (K : Type) where
  pos : Sky K
  fixed : Bool
  radii : List K

/-- What packing uses of the world coordinate system of an exposure: pixel positions, and the two
matrices of `scale_at_sky` (patch.py:331-338). -/
structure Frame (K : Type) where
  pix : Sky K → K × K
  cw : Sky K → M22 K
  d : Sky K → M22 K

/-- One entry of the arrays `D`, `CW`, `crval`, `crpix`, which have the same leading shape
(patch.py:316-319). -/
structure Entry (K : Type) where
  d : M22 K
  cw : M22 K
  crval : Sky K
  crpix : K × K

/-- What was packed with the pixels, and is needed for metadata (patch.py:245-252). -/
structure Exposures (K β : Type) where
  nExp : Nat
  frames : List (Frame K)
  hdrs : List (String → Option K)
  bands : List β
  bandlist : List β
  nExpPerBand : List Nat

/-- The PSF store: the advertised number of gaussians of a band (patch.py:378-379), and the gaussians
it returns when it is not told a position (storage.py:559-574). -/
structure Store (β γ : Type) where
  count : β → Nat
  gauss : β → List γ

/-- The metadata attributes of a patch.  `none` stands for an attribute that does not exist, and for
entries of `np.empty` arrays that were not written. -/
structure Attrs (K γ : Type) where
  ref : Sky K
  nSources : Option Nat
  nRadii : Option Nat
  rad2 : Option (List K)
  table : Option (List (List (Option (Entry K))))
  flux : Option (List K)
  psf : Option (List γ × List Nat)
  scene : Option (List (Src K))

/-- `Patch.__init__` (patch.py:221-240): a reference of zero and no metadata. -/
def newAttrs (K γ : Type) [Field K] : Attrs K γ where
  ref := { ra := 0, dec := 0 }
  nSources := none
  nRadii := none
  rad2 := none
  table := none
  flux := none
  psf := none
  scene := none

/-- `Scene.n_active` (sources.py:112-127). -/
def nActive (scene : List (Src K)) : Nat := (scene.filter fun s => !s.fixed).length

/-- `self.D[j, i] = ...` and its three companions (patch.py:334-338): `IndexError` outside the
array. -/
def setEntry (t : List (List (Option (Entry K)))) (j i : Nat) (v : Entry K) :
    Option (List (List (Option (Entry K)))) :=
  match t[j]? with
  | none => none
  | some row => if i < row.length then some (t.set j (row.set i (some v))) else none

/-- What is packed for a source with the position `s`, which is relative to `ref`
(patch.py:332-338). -/
def entry (ref : Sky K) (w : Frame K) (s : Sky K) : Entry K :=
  let ssky : Sky K := { ra := s.ra + ref.ra, dec := s.dec + ref.dec }
  { d := w.d ssky
    cw := w.cw ssky
    crval := { ra := ssky.ra - ref.ra, dec := ssky.dec - ref.dec }
    crpix := w.pix ssky }

/-- The loop over sources (patch.py:331-338), from source number `i` on. -/
def fillRow (ref : Sky K) (w : Frame K) (j : Nat) :
    List (List (Option (Entry K))) → Nat → List (Src K) →
      Option Err × List (List (Option (Entry K)))
  | t, _, [] => (none, t)
  | t, i, s :: l =>
    match setEntry t j i (entry ref w s.pos) with
    | none => (some .indexError, t)
    | some t' => fillRow ref w j t' (i + 1) l

/-- The loop over exposures (patch.py:324-338), from exposure number `j` on. -/
def fillTable (ref : Sky K) (scene : List (Src K)) :
    List (List (Option (Entry K))) → Nat → List (Frame K) →
      Option Err × List (List (Option (Entry K)))
  | t, _, [] => (none, t)
  | t, j, w :: l =>
    match fillRow ref w j t 0 scene with
    | (some e, t') => (some e, t')
    | (none, t') => fillTable ref scene t' (j + 1) l

/-- `Patch._pack_fluxcal` (patch.py:340-355).  `key` is the name of a header entry; a header is a
partial function of names, and there are at most as many headers as exposures.  The error is the
missing name. -/
def packFluxcal (nExp : Nat) (key : Option String) (hdrs : List (String → Option K)) :
    Except String (List K) :=
  match key with
  | none => .ok (List.replicate nExp 1)
  | some k =>
    if k = "" then .ok (List.replicate nExp 1)
    else match hdrs.mapM fun h => h k with
      | none => .error k
      | some vals => .ok (vals ++ List.replicate (nExp - vals.length) 1)

/-- The scene with its positions replaced by those of `zerocoords` (patch.py:453-455). -/
def shiftScene (z : Sky K) (scene : List (Src K)) : List (Src K) :=
  scene.map fun s => { s with pos := { ra := s.pos.ra - z.ra, dec := s.pos.dec - z.dec } }

/-- `Patch.pack_meta` (patch.py:242-270): the exception if one is raised, and the attributes and the
scene as they are afterwards. -/
def packScene {β γ : Type} (ex : Exposures K β) (store : Store β γ) (st : Attrs K γ)
    (scene : List (Src K)) : Option Err × Attrs K γ × List (Src K) :=
  -- zerocoords, patch.py:261
  let z := (zerocoords none (scene.map (·.pos))).2
  let sc := shiftScene z scene
  let st1 : Attrs K γ := { st with ref := z, nSources := some scene.length }
  -- _pack_source_metadata, patch.py:272-297
  let st2 : Attrs K γ := { st1 with nSources := some (nActive scene) }
  match sc with
  | [] => (some .indexError, st2, sc)
  | s :: _ =>
    let st3 : Attrs K γ :=
      { st2 with
        nRadii := some s.radii.length
        rad2 := some (s.radii.map fun r => r ^ 2) }
    -- _pack_astrometry, patch.py:299-338
    let blank := List.replicate ex.nExp (List.replicate (nActive scene) none)
    let filled := fillTable z sc blank 0 ex.frames
    let st4 : Attrs K γ := { st3 with table := some filled.2 }
    match filled.1 with
    | some e => (some e, st4, sc)
    | none =>
      -- _pack_fluxcal(self.hdrs), patch.py:268: no header key is passed
      let st5 : Attrs K γ := { st4 with flux := (packFluxcal ex.nExp none ex.hdrs).toOption }
      -- _pack_psf, patch.py:357-396
      match packPsf (ex.bandlist.map store.count) ex.nExpPerBand (nActive scene)
          (ex.bands.map fun b => sc.map fun _ => store.gauss b) with
      | .error e => (some e, { st5 with psf := none }, sc)
      | .ok p => (none, { st5 with psf := some p, scene := some sc }, sc)

/-! ## Filling the table -/

lemma setEntry_some {t : List (List (Option (Entry K)))} {j i : Nat} {v : Entry K}
    {row : List (Option (Entry K))} (hr : t[j]? = some row) (hi : i < row.length) :
    setEntry t j i v = some (t.set j (row.set i (some v))) := by
  simp [setEntry, hr, hi]

/-- Filling as many sources as fit. -/
lemma fillRow_ok (ref : Sky K) (w : Frame K) (j : Nat) (l : List (Src K)) :
    ∀ (t : List (List (Option (Entry K)))) (done rest : List (Option (Entry K))),
      t[j]? = some (done ++ rest) → l.length = rest.length →
      fillRow ref w j t done.length l =
        (none, t.set j (done ++ l.map fun s => some (entry ref w s.pos))) := by
  induction l with
  | nil =>
    intro t done rest hr hl
    have : rest = [] := List.eq_nil_of_length_eq_zero hl.symm
    subst this
    simp only [fillRow, List.map_nil, Prod.mk.injEq, true_and]
    obtain ⟨hj, h⟩ := List.getElem?_eq_some_iff.1 hr
    rw [← h, List.set_getElem_self]
  | cons s l ih =>
    intro t done rest hr hl
    cases rest with
    | nil => simp at hl
    | cons x rest =>
      have hj : j < t.length := (List.getElem?_eq_some_iff.1 hr).1
      simp only [fillRow]
      rw [setEntry_some hr (by simp)]
      simp only
      have hset : (done ++ x :: rest).set done.length (some (entry ref w s.pos)) =
          (done ++ [some (entry ref w s.pos)]) ++ rest := by simp
      rw [hset]
      have := ih (t.set j ((done ++ [some (entry ref w s.pos)]) ++ rest))
        (done ++ [some (entry ref w s.pos)]) rest (by simp [hj]) (by simpa using hl)
      rw [List.length_append, List.length_singleton] at this
      rw [this]
      simp

/-- Filling more sources than fit. -/
lemma fillRow_err (ref : Sky K) (w : Frame K) (j : Nat) (l : List (Src K)) :
    ∀ (t : List (List (Option (Entry K)))) (done rest : List (Option (Entry K))),
      t[j]? = some (done ++ rest) → rest.length < l.length →
      fillRow ref w j t done.length l =
        (some .indexError,
          t.set j (done ++ (l.take rest.length).map fun s => some (entry ref w s.pos))) := by
  induction l with
  | nil => intro t done rest _ hl; simp at hl
  | cons s l ih =>
    intro t done rest hr hl
    have hj : j < t.length := (List.getElem?_eq_some_iff.1 hr).1
    cases rest with
    | nil =>
      have : setEntry t j done.length (entry ref w s.pos) = none := by
        simp [setEntry, hr]
      simp only [fillRow, this, List.length_nil, List.take_zero, List.map_nil, Prod.mk.injEq,
        true_and]
      obtain ⟨hj', h⟩ := List.getElem?_eq_some_iff.1 hr
      rw [← h, List.set_getElem_self]
    | cons x rest =>
      simp only [fillRow]
      rw [setEntry_some hr (by simp)]
      simp only
      have hset : (done ++ x :: rest).set done.length (some (entry ref w s.pos)) =
          (done ++ [some (entry ref w s.pos)]) ++ rest := by simp
      rw [hset]
      have := ih (t.set j ((done ++ [some (entry ref w s.pos)]) ++ rest))
        (done ++ [some (entry ref w s.pos)]) rest (by simp [hj]) (by simpa using hl)
      rw [List.length_append, List.length_singleton] at this
      rw [this]
      simp

lemma fillTable_ok (ref : Sky K) (scene : List (Src K)) (l : List (Frame K)) :
    ∀ done : List (List (Option (Entry K))),
      fillTable ref scene (done ++ List.replicate l.length (List.replicate scene.length none))
          done.length l =
        (none, done ++ l.map fun w => scene.map fun s => some (entry ref w s.pos)) := by
  induction l with
  | nil => intro done; simp [fillTable]
  | cons w l ih =>
    intro done
    have hrow : (done ++ List.replicate (w :: l).length
        (List.replicate scene.length (none : Option (Entry K))))[done.length]? =
          some ([] ++ List.replicate scene.length none) := by
      simp
    have h := fillRow_ok ref w done.length scene _ [] _ hrow (by simp)
    simp only [fillTable, List.length_nil] at h ⊢
    rw [h]
    simp only [List.nil_append]
    have hs : (done ++ List.replicate (w :: l).length
        (List.replicate scene.length (none : Option (Entry K)))).set done.length
          (scene.map fun s => some (entry ref w s.pos)) =
        (done ++ [scene.map fun s => some (entry ref w s.pos)]) ++
          List.replicate l.length (List.replicate scene.length none) := by
      simp [List.replicate_succ]
    rw [hs]
    have := ih (done ++ [scene.map fun s => some (entry ref w s.pos)])
    rw [List.length_append, List.length_singleton] at this
    rw [this]
    simp

lemma nActive_all {scene : List (Src K)} (h : ∀ s ∈ scene, s.fixed = false) :
    nActive scene = scene.length := by
  simp only [nActive]
  rw [List.filter_eq_self.2 fun s hs => by simp [h s hs]]

lemma nActive_lt {scene : List (Src K)} {s : Src K} (hs : s ∈ scene) (h : s.fixed = true) :
    nActive scene < scene.length := by
  have hle := List.length_filter_le (fun s : Src K => !s.fixed) scene
  rcases Nat.lt_or_ge (nActive scene) scene.length with hlt | hge
  · exact hlt
  · have := List.length_filter_eq_length_iff.1 (Nat.le_antisymm hle hge) s hs
    simp [h] at this

/-! ## Scenes without fixed sources -/

lemma packPsf_bands {β γ : Type} (store : Store β γ) (n : Nat) (groups : List (β × Nat))
    (hc : ∀ g ∈ groups, (store.gauss g.1).length = store.count g.1) :
    ∃ p, packPsf ((groups.map (·.1)).map store.count) (groups.map (·.2)) n
      ((groups.map fun g => List.replicate g.2 g.1).flatten.map
        fun b => List.replicate n (store.gauss b)) = .ok p := by
  obtain ⟨gs, start, h⟩ := C45_succeeds n
    (groups.map fun g => (store.count g.1,
      List.replicate g.2 (List.replicate n (store.gauss g.1)))) (by
    intro g hg e he
    obtain ⟨g', hg', rfl⟩ := List.mem_map.1 hg
    have := List.eq_of_mem_replicate he
    subst this
    refine ⟨by simp, fun ps hps => ?_⟩
    rw [List.eq_of_mem_replicate hps]
    exact hc g' hg')
  refine ⟨(gs, start), ?_⟩
  rw [← h]
  simp only [List.map_map, Function.comp_def, List.map_flatten, List.map_replicate,
    List.length_replicate]

/-- **C142**, partial: scenes without fixed sources (see `C142_fixed`).  `groups` lists the bands of the patch with their numbers
of exposures; the store returns the advertised number of gaussians.  Packing a non-empty scene
succeeds, whatever was packed before and whatever the headers contain, and afterwards

* the reference is the median position, and every source was moved by it, nothing else being
  changed in the scene;
* the number of sources and the squared radii are those of the scene;
* for every exposure and every source, the matrices and the pixel position are those of the
  original position, and the reference value is the moved position;
* there is one flux calibration factor per exposure, and it is one;
* the PSF gaussians are, exposure by exposure, one copy of the store's list for each source. -/
theorem C142_pack_partial {β γ : Type} (frames : List (Frame K)) (hdrs : List (String → Option K))
    (groups : List (β × Nat)) (store : Store β γ) (st : Attrs K γ) (scene : List (Src K))
    (first : Src K) (hfirst : scene[0]? = some first)
    (hfree : ∀ s ∈ scene, s.fixed = false)
    (hn : frames.length = (groups.map (·.2)).sum)
    (hc : ∀ g ∈ groups, (store.gauss g.1).length = store.count g.1) :
    ∃ (st' : Attrs K γ) (scene' : List (Src K)) (start : List Nat),
      packScene
        { nExp := frames.length, frames := frames, hdrs := hdrs
          bands := (groups.map fun g => List.replicate g.2 g.1).flatten
          bandlist := groups.map (·.1), nExpPerBand := groups.map (·.2) }
        store st scene = (none, st', scene') ∧
      st'.ref.ra = median (scene.map fun s => s.pos.ra) ∧
      st'.ref.dec = median (scene.map fun s => s.pos.dec) ∧
      scene' = (scene.map fun s =>
        { pos := { ra := s.pos.ra - st'.ref.ra, dec := s.pos.dec - st'.ref.dec }
          fixed := s.fixed, radii := s.radii }) ∧
      st'.scene = some scene' ∧
      st'.nSources = some scene.length ∧
      st'.nRadii = some first.radii.length ∧
      st'.rad2 = some (first.radii.map fun r => r * r) ∧
      st'.flux = some (List.replicate frames.length 1) ∧
      st'.table = some (frames.map fun w => scene.map fun s => some
        { d := w.d s.pos, cw := w.cw s.pos
          crval := { ra := s.pos.ra - st'.ref.ra, dec := s.pos.dec - st'.ref.dec }
          crpix := w.pix s.pos }) ∧
      st'.psf = some ((groups.map fun g => (List.replicate g.2
        (List.replicate scene.length (store.gauss g.1)).flatten).flatten).flatten, start) ∧
      start.length = frames.length := by
  obtain ⟨p, hp⟩ := packPsf_bands store scene.length groups hc
  have hb := C45_blocks (gs := p.1) (start := p.2) hp
  cases scene with
  | nil => simp at hfirst
  | cons s0 l =>
    simp only [List.getElem?_cons_zero, Option.some.injEq] at hfirst
    subst hfirst
    have hna := nActive_all hfree
    have ht := fillTable_ok (zerocoords none ((s0 :: l).map (·.pos))).2
      (shiftScene (zerocoords none ((s0 :: l).map (·.pos))).2 (s0 :: l)) frames []
    rw [List.length_nil, List.nil_append, List.nil_append] at ht
    have hsl : (shiftScene (zerocoords none ((s0 :: l).map (·.pos))).2 (s0 :: l)).length =
        (s0 :: l).length := by simp [shiftScene]
    rw [hsl] at ht
    have hps : (((groups.map fun g => List.replicate g.2 g.1).flatten.map fun b =>
        (shiftScene (zerocoords none ((s0 :: l).map (·.pos))).2 (s0 :: l)).map
          fun _ => store.gauss b)) =
        (groups.map fun g => List.replicate g.2 g.1).flatten.map
          fun b => List.replicate (s0 :: l).length (store.gauss b) := by
      apply List.map_congr_left
      intro b _
      rw [List.map_const', hsl]
    set z := (zerocoords none ((s0 :: l).map (·.pos))).2 with hz
    refine ⟨{ ref := z, nSources := some (s0 :: l).length, nRadii := some s0.radii.length
              rad2 := some (s0.radii.map fun r => r ^ 2)
              table := some (frames.map fun w => (shiftScene z (s0 :: l)).map
                fun s => some (entry z w s.pos))
              flux := some (List.replicate frames.length 1), psf := some p
              scene := some (shiftScene z (s0 :: l)) },
      shiftScene z (s0 :: l), p.2, ?_, ?_, ?_, rfl, rfl, rfl, rfl, ?_, rfl, ?_, ?_, ?_⟩
    · simp only [packScene, ← hz, hna]
      rw [ht]
      simp only [hps, hp]
      simp only [shiftScene, List.map_cons, packFluxcal, Except.toOption]
    · simp only [hz, zerocoords, List.map_map, Function.comp_def]
    · simp only [hz, zerocoords, List.map_map, Function.comp_def]
    · simp only [pow_two]
    · simp only [shiftScene, List.map_map, Function.comp_def, entry, sub_add_cancel]
    · simp only [Option.some.injEq]
      refine Prod.ext ?_ rfl
      rw [hb.1]
      simp only [List.map_flatten, List.map_map, Function.comp_def, List.map_replicate,
        List.flatten_flatten]
    · rw [hb.2.1, hn, List.length_map, List.length_flatten]
      simp [Function.comp_def]

/-! ## Scenes with a fixed source -/

/-- **C142**, scenes with a fixed source.  As soon as there is an exposure, packing raises
`IndexError`; by then all sources of the scene have been moved by the median position, the number of
sources is that of the free ones, the astrometry of the first exposure holds the entries of as many
leading sources of the scene, fixed or not, and the later exposures hold nothing; the flux
calibration, PSF and scene of the patch are those of the scene packed before. -/
theorem C142_fixed {β γ : Type} (ex : Exposures K β) (store : Store β γ) (st : Attrs K γ)
    (scene : List (Src K)) (f : Src K) (hf : f ∈ scene) (hfix : f.fixed = true)
    (w : Frame K) (ws : List (Frame K)) (hframes : ex.frames = w :: ws)
    (hn : ex.nExp = ws.length + 1) :
    ∃ (st' : Attrs K γ) (scene' : List (Src K)),
      packScene ex store st scene = (some .indexError, st', scene') ∧
      st'.ref.ra = median (scene.map fun s => s.pos.ra) ∧
      st'.ref.dec = median (scene.map fun s => s.pos.dec) ∧
      scene' = (scene.map fun s =>
        { pos := { ra := s.pos.ra - st'.ref.ra, dec := s.pos.dec - st'.ref.dec }
          fixed := s.fixed, radii := s.radii }) ∧
      st'.nSources = some (scene.countP fun s => !s.fixed) ∧
      st'.table = some
        (((scene.take (scene.countP fun s => !s.fixed)).map fun s => some
            { d := w.d s.pos, cw := w.cw s.pos
              crval := { ra := s.pos.ra - st'.ref.ra, dec := s.pos.dec - st'.ref.dec }
              crpix := w.pix s.pos }) ::
          List.replicate ws.length (List.replicate (scene.countP fun s => !s.fixed) none)) ∧
      st'.flux = st.flux ∧ st'.psf = st.psf ∧ st'.scene = st.scene := by
  have hlt := nActive_lt hf hfix
  have hcount : nActive scene = scene.countP fun s => !s.fixed := by
    rw [nActive, List.countP_eq_length_filter]
  rw [← hcount]
  cases scene with
  | nil => simp at hf
  | cons s0 l =>
    set z := (zerocoords none ((s0 :: l).map (·.pos))).2 with hz
    have hrow : (List.replicate (ws.length + 1)
        (List.replicate (nActive (s0 :: l)) (none : Option (Entry K))))[0]? =
          some ([] ++ List.replicate (nActive (s0 :: l)) none) := by
      simp
    have hfill := fillRow_err z w 0 (shiftScene z (s0 :: l)) _ [] _ hrow
      (by simpa [shiftScene] using hlt)
    simp only [List.length_nil, List.nil_append, List.length_replicate] at hfill
    refine ⟨{ ref := z, nSources := some (nActive (s0 :: l)), nRadii := some s0.radii.length
              rad2 := some (s0.radii.map fun r => r ^ 2)
              table := some ((List.replicate (ws.length + 1)
                (List.replicate (nActive (s0 :: l)) (none : Option (Entry K)))).set 0
                  (((shiftScene z (s0 :: l)).take (nActive (s0 :: l))).map
                    fun s => some (entry z w s.pos)))
              flux := st.flux, psf := st.psf, scene := st.scene },
      shiftScene z (s0 :: l), ?_, ?_, ?_, rfl, rfl, ?_, rfl, rfl, rfl⟩
    · simp only [packScene, ← hz, hframes, hn, fillTable]
      rw [hfill]
      simp only [shiftScene, List.map_cons]
    · simp only [hz, zerocoords, List.map_map, Function.comp_def]
    · simp only [hz, zerocoords, List.map_map, Function.comp_def]
    · simp only [List.replicate_succ, List.set_cons_zero, shiftScene, List.map_take, List.map_map,
        Function.comp_def, entry, sub_add_cancel]

/-- Whatever the outcome, adding the reference of the patch to the positions restores them. -/
theorem C142_restore {β γ : Type} (ex : Exposures K β) (store : Store β γ) (st : Attrs K γ)
    (scene : List (Src K)) :
    unzerocoords (packScene ex store st scene).2.1.ref
      ((packScene ex store st scene).2.2.map (·.pos)) = scene.map (·.pos) := by
  have h : (packScene ex store st scene).2.1.ref = (zerocoords none (scene.map (·.pos))).2 ∧
      (packScene ex store st scene).2.2 =
        shiftScene (zerocoords none (scene.map (·.pos))).2 scene := by
    simp only [packScene]
    split
    · exact ⟨rfl, rfl⟩
    · split
      · exact ⟨rfl, rfl⟩
      · split <;> exact ⟨rfl, rfl⟩
  rw [h.1, h.2]
  simp only [unzerocoords, shiftScene, List.map_map]
  apply List.map_congr_left
  intro s _
  simp

/-- A patch to which no scene was packed has no metadata at all, and its reference moves nothing. -/
theorem C142_new {γ : Type} (scene : List (Sky K)) :
    unzerocoords (newAttrs K γ).ref scene = scene ∧ (newAttrs K γ).nSources = none ∧
    (newAttrs K γ).nRadii = none ∧ (newAttrs K γ).rad2 = none ∧ (newAttrs K γ).table = none ∧
    (newAttrs K γ).flux = none ∧ (newAttrs K γ).psf = none ∧ (newAttrs K γ).scene = none := by
  refine ⟨?_, rfl, rfl, rfl, rfl, rfl, rfl, rfl⟩
  simp [unzerocoords, newAttrs]

/-- An empty scene cannot be packed. -/
theorem C142_empty {β γ : Type} (ex : Exposures K β) (store : Store β γ) (st : Attrs K γ) :
    (packScene ex store st []).1 = some .indexError ∧
    (packScene ex store st []).2.1.nSources = some 0 := ⟨rfl, rfl⟩

/-! ## Flux calibration -/

/-- **C142**, flux calibration: without a header key, or with an empty one, every factor is one; with
a key that every header has, the factors are the header values in order of exposure, and one for exposures
behind the last header; with a key that some header lacks, the key is reported. -/
theorem C142_fluxcal (nExp : Nat) (hdrs : List (String → Option K)) :
    packFluxcal nExp none hdrs = .ok (List.replicate nExp 1) ∧
    packFluxcal nExp (some "") hdrs = .ok (List.replicate nExp 1) ∧
    (∀ (k : String) (v : (String → Option K) → K), k ≠ "" → (∀ h ∈ hdrs, h k = some (v h)) →
      packFluxcal nExp (some k) hdrs = .ok (hdrs.map v ++ List.replicate (nExp - hdrs.length) 1)) ∧
    (∀ (k : String), k ≠ "" → (∃ h ∈ hdrs, h k = none) →
      packFluxcal nExp (some k) hdrs = .error k) := by
  refine ⟨rfl, rfl, ?_, ?_⟩
  · intro k v hk hv
    have : (hdrs.mapM fun h => h k) = some (hdrs.map v) := by
      induction hdrs with
      | nil => rfl
      | cons a l ih =>
        rw [List.mapM_cons, hv a (by simp), ih fun h hh => hv h (by simp [hh])]
        rfl
    simp only [packFluxcal, if_neg hk, this]
    simp
  · intro k hk hv
    have : (hdrs.mapM fun h => h k) = none := by
      induction hdrs with
      | nil => simp at hv
      | cons a l ih =>
        rw [List.mapM_cons]
        cases ha : a k with
        | none => rfl
        | some x =>
          obtain ⟨h, hh, hn⟩ := hv
          rcases List.mem_cons.1 hh with rfl | hh
          · rw [ha] at hn; cases hn
          · rw [ih ⟨h, hh, hn⟩]; rfl
    simp only [packFluxcal, if_neg hk, this]

end

/-! ## Witnesses -/

/-- A frame with the identity as pixel map. -/
def demoFrame : Frame ℚ where
  pix := fun s => (s.ra, s.dec)
  cw := fun _ => ⟨1, 0, 0, 1⟩
  d := fun _ => ⟨2, 0, 0, 2⟩

/-- One exposure in one band, with a header that asks for a factor of two. -/
def demoExp : Exposures ℚ String where
  nExp := 1
  frames := [demoFrame]
  hdrs := [fun _ => some 2]
  bands := ["A"]
  bandlist := ["A"]
  nExpPerBand := [1]

/-- A store with one gaussian. -/
def demoStore : Store String Nat where
  count := fun _ => 1
  gauss := fun _ => [7]

/-- Two sources, of which the second may be fixed. -/
def demoScene (fixed : Bool) : List (Src ℚ) :=
  [{ pos := ⟨1, 5⟩, fixed := false, radii := [1, 2] },
   { pos := ⟨3, 5⟩, fixed := fixed, radii := [1, 2] }]

/-- The positions of the demonstration scene. -/
lemma demo_median : median [(1 : ℚ), 3] = 2 ∧ median [(5 : ℚ), 5] = 5 := by
  constructor <;> simp [median, List.mergeSort, List.MergeSort.Internal.splitInTwo] <;> norm_num

/-- A scene whose first source is free and whose second is fixed. -/
theorem C142_refuted :
    (∃ st' : Attrs ℚ Nat, packScene demoExp demoStore (newAttrs ℚ Nat) (demoScene true) =
      (some .indexError, st',
        [{ pos := ⟨-1, 0⟩, fixed := false, radii := [1, 2] },
         { pos := ⟨1, 0⟩, fixed := true, radii := [1, 2] }]) ∧ st'.nSources = some 1 ∧
         st'.flux = none ∧ st'.psf = none) ∧
    (∃ st' : Attrs ℚ Nat, packScene demoExp demoStore (newAttrs ℚ Nat) (demoScene false) =
      (none, st',
        [{ pos := ⟨-1, 0⟩, fixed := false, radii := [1, 2] },
         { pos := ⟨1, 0⟩, fixed := false, radii := [1, 2] }]) ∧ st'.nSources = some 2 ∧
         st'.flux = some [1]) := by
  have hm := demo_median
  constructor
  · obtain ⟨st', sc, h, h1, h2, h3, h4, _, h6, h7, _⟩ := C142_fixed demoExp demoStore
      (newAttrs ℚ Nat) (demoScene true) _ (List.mem_cons_of_mem _ (List.mem_singleton.2 rfl)) rfl
      demoFrame [] rfl rfl
    simp only [demoScene, List.map_cons, List.map_nil] at h1 h2 h3
    rw [hm.1] at h1
    rw [hm.2] at h2
    rw [h1, h2] at h3
    refine ⟨st', ?_, h4, h6, h7⟩
    rw [h, h3]
    norm_num
  · obtain ⟨st', sc, start, h, h1, h2, h3, _, h4, _, _, h5, _⟩ := C142_pack_partial [demoFrame]
      [fun _ => some 2] [("A", 1)] demoStore (newAttrs ℚ Nat) (demoScene false) _ rfl
      (by decide) rfl (by decide)
    simp only [demoScene, List.map_cons, List.map_nil] at h1 h2 h3
    rw [hm.1] at h1
    rw [hm.2] at h2
    rw [h1, h2] at h3
    refine ⟨st', ?_, h4, h5⟩
    rw [show packScene demoExp demoStore (newAttrs ℚ Nat) (demoScene false) = _ from h, h3]
    norm_num

end Forcepho.Patch
