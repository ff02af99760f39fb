import Verif.Patch.Meta
import Mathlib.Data.List.Dedup
import Mathlib.Algebra.Order.BigOperators.Group.List

/-! # A patch made from stamps and its inverse (forcepho/patches/static_patch.py)

The constructor: grouping by band, astrometry of sources, and `patch_to_stamps`.  The packing of pixels and
PSFs is in `Verif/Patch/Model.lean`.  The widths of the index types (int16, int32) are left out. -/

set_option autoImplicit false
set_option linter.unusedSectionVars false

namespace Forcepho.Patch.Static

variable {K : Type} [Field K]

/-- How building or unpacking can fail. -/
inductive SErr where
  /-- stamps are not sorted by band -/
  | unsorted
  /-- a numpy array used as a truth value, or as a data type -/
  | badType
  | indexError
  | valueError
  | assertionError
  /-- a name that is not defined in the module -/
  | nameError
  deriving DecidableEq

/-- A stamp: integer band identifier and pixels. -/
structure Stamp (K : Type) where
  band : Int
  pix : List (Pixel K)

/-- `(np.diff(band_ids) >= 0).all()` (static_patch.py:62-63, 120-121). -/
def sortedBands : List Int → Bool
  | [] => true
  | [_] => true
  | a :: b :: l => decide (a ≤ b) && sortedBands (b :: l)

/-- `self.n_bands`: the number of distinct bands (static_patch.py:65-69). -/
def nBands (bands : List Int) : Nat := bands.dedup.length

/-- The part of the loop of `pack_pix` that counts exposures per band (static_patch.py:285-289): `prev` is the
band of the preceding stamp, `b` the running band index. -/
def bandLoop : List Int → Option Int → Nat → List Nat → Except SErr (List Nat)
  | [], _, _, bandN => .ok bandN
  | x :: l, prev, b, bandN =>
    let b' := if prev = none ∨ prev = some x then b else b + 1
    if b' < bandN.length then bandLoop l (some x) b' (bandN.modify b' (· + 1)) else .error .indexError

/-- `band_N` and `band_start` (static_patch.py:277-278, 285-289, 306-307). -/
def packBands (bands : List Int) : Except SErr (List Nat × List Nat) :=
  match bandLoop bands none 0 (List.replicate (nBands bands) 0) with
  | .error e => .error e
  | .ok bandN =>
    -- `band_start[0] = 0` on an empty array
    if bandN = [] then .error .indexError else .ok (bandN, 0 :: (cumsum bandN).dropLast)

/-- What a source of the scene must carry for a static patch (static_patch.py:105-116), one entry for each
exposure. -/
structure Src (K M V : Type) where
  scales : List M
  cds : List M
  crpixs : List V
  crvals : List V
  zps : List K
  radii : List K

/-- The metadata arrays; per exposure and per source. -/
structure Astro (K M V : Type) where
  D : List (List M)
  CW : List (List M)
  crpix : List (List V)
  crval : List (List V)
  G : List K

variable {M V : Type}

/-- All of a list of optional values. -/
def allSome {α : Type} : List (Option α) → Option (List α)
  | [] => some []
  | none :: _ => none
  | some a :: l => (allSome l).map (a :: ·)

/-- One exposure of the loop in `pack_astrometry` (static_patch.py:228-236) for `sources = first :: rest`, of
which there are `nSources`. -/
def astroOne (nSources : Nat) (first : Src K M V) (sources : List (Src K M V)) (i : Nat) :
    Except SErr ((List M × List M) × (List V × List V) × K) :=
  match first.crpixs[i]?, first.crvals[i]?, first.zps[i]? with
  | some p, some v, some g =>
    match allSome (sources.map fun s => s.scales[i]?), allSome (sources.map fun s => s.cds[i]?) with
    | some d, some c => .ok ((d, c), (List.replicate nSources p, List.replicate nSources v), g)
    | _, _ => .error .indexError
  | _, _, _ => .error .indexError

/-- The loop over the exposures `i, i+1, ...`. -/
def astroLoop (nSources : Nat) (first : Src K M V) (sources : List (Src K M V)) :
    Nat → Nat → Except SErr (Astro K M V)
  | _, 0 => .ok ⟨[], [], [], [], []⟩
  | i, n + 1 =>
    match astroOne nSources first sources i with
    | .error e => .error e
    | .ok r =>
      match astroLoop nSources first sources (i + 1) n with
      | .error e => .error e
      | .ok a => .ok ⟨r.1.1 :: a.D, r.1.2 :: a.CW, r.2.1.1 :: a.crpix, r.2.1.2 :: a.crval, r.2.2 :: a.G⟩

/-- `StaticPatch.pack_astrometry` (static_patch.py:202-236).  `nSources` is the number of *active* sources of
the scene (static_patch.py:193); the loop runs over all of them and raises when there are more.  (With fewer
sources than `nSources` entries would stay uninitialised; a scene has no more active sources than sources.) -/
def packAstrometry (nExp nActive : Nat) (sources : List (Src K M V)) : Except SErr (Astro K M V) :=
  match sources with
  | [] => if nExp = 0 then .ok ⟨[], [], [], [], []⟩ else .error .indexError
  | first :: _ =>
    if nExp ≠ 0 ∧ nActive < sources.length then .error .indexError else astroLoop nActive first sources 0 nExp

/-- `StaticPatch.pack_source_metadata` (static_patch.py:178-200): `n_radii` and `rad2`. -/
def packRadii (sources : List (Src K M V)) : Except SErr (Nat × List K) :=
  match sources with
  | [] => .error .indexError
  | first :: _ => .ok (first.radii.length, first.radii.map fun r => r * r)

/-- A static patch, without its PSFs. -/
structure SPatch (K M V : Type) where
  pix : List (Pixel K)
  exposureStart : List Nat
  exposureN : List Nat
  bandN : List Nat
  bandStart : List Nat
  nSources : Nat
  rad2 : List K
  astro : Astro K M V

/-- Turn an error of the pixel packing into one of this file. -/
def liftErr {α : Type} : Except Err α → Except SErr α
  | .ok a => .ok a
  | .error .assertionError => .error .assertionError
  | .error .valueError => .error .valueError
  | .error .indexError => .error .indexError

/-- `StaticPatch.__init__` (static_patch.py:24-83) and `StaticPatch.build_patch` (85-134), up to the call of
`pack_psf`.  `masked`: a mask array of several pixels was passed to the constructor, which hands it to
`pack_pix` as the data type (static_patch.py:77, 238, 257). -/
def build (masked : Bool) (stamps : List (Stamp K)) (nActive : Nat) (sources : List (Src K M V)) :
    Except SErr (SPatch K M V) :=
  if sortedBands (stamps.map (·.band)) = false then .error .unsorted
  else if masked then .error .badType
  else
    match liftErr (staticPackPix (stamps.map (·.pix))), packBands (stamps.map (·.band)), packRadii sources,
      packAstrometry stamps.length nActive sources with
    | .ok px, .ok bn, .ok rd, .ok as => .ok ⟨px.1, px.2.1, px.2.2, bn.1, bn.2, nActive, rd.2, as⟩
    | .error e, _, _, _ => .error e
    | .ok _, .error e, _, _ => .error e
    | .ok _, .ok _, .error e, _ => .error e
    | .ok _, .ok _, .ok _, .error e => .error e

/-- What `patch_to_stamps` puts on a stamp: the pixels and what it stores under the name `crpix`. -/
structure Back (K V : Type) where
  pix : List (Pixel K)
  crpix : V

/-- The pixels and reference points of the stamps in `patch_to_stamps` (static_patch.py:311-324), once the
class `PostageStamp` is known. -/
def toStampsBody (p : SPatch K M V) : Except SErr (List (Back K V)) :=
  let parts := npSplit p.pix (cumsum p.exposureN).dropLast
  match allSome ((List.range p.bandN.sum).map fun e => parts[e]?),
      allSome ((List.range p.bandN.sum).map fun e => (p.astro.crpix[e]?).bind fun r => r[0]?),
      allSome ((List.range p.bandN.sum).map fun e => (p.astro.crval[e]?).bind fun r => r[0]?) with
  -- both are assigned to `stamp.crpix`
  | some ps, some _, some vs => .ok (List.zipWith (fun a b => ⟨a, b⟩) ps vs)
  | _, _, _ => .error .indexError

/-- `patch_to_stamps` (static_patch.py:310-337): `known` says whether the name `PostageStamp` is defined; the
module neither defines nor imports it, so it is `false` in the code. -/
def toStamps (known : Bool) (p : SPatch K M V) : Except SErr (List (Back K V)) :=
  if known = false ∧ p.bandN.sum ≠ 0 then .error .nameError else toStampsBody p

/-! ## Grouping by band -/

/-- The check accepts exactly the sorted lists. -/
theorem sortedBands_iff : ∀ l : List Int, sortedBands l = true ↔ l.Pairwise (· ≤ ·)
  | [] => by simp [sortedBands]
  | [a] => by simp [sortedBands]
  | a :: b :: l => by
    rw [sortedBands, Bool.and_eq_true, sortedBands_iff (b :: l), decide_eq_true_iff]
    constructor
    · rintro ⟨h1, h2⟩
      refine List.pairwise_cons.mpr ⟨?_, h2⟩
      intro x hx
      rcases List.mem_cons.mp hx with rfl | hx
      · exact h1
      · exact le_trans h1 ((List.pairwise_cons.mp h2).1 x hx)
    · intro h
      exact ⟨(List.pairwise_cons.mp h).1 b (by simp), (List.pairwise_cons.mp h).2⟩

/-- A sorted list is its distinct values in increasing order, each repeated. -/
def Runs (bands : List Int) (uniq : List Int) (n : List Nat) : Prop :=
  uniq.length = n.length ∧ uniq.Pairwise (· < ·) ∧ (∀ k ∈ n, 0 < k) ∧
    bands = ((uniq.zip n).map fun p => List.replicate p.2 p.1).flatten

/-- Counting up one entry. -/
theorem modify_mid : ∀ (a b : List Nat) (x : Nat),
    (a ++ x :: b).modify a.length (· + 1) = a ++ (x + 1) :: b
  | [], b, x => by simp
  | y :: a, b, x => by simp [modify_mid a b x]

/-- The loop on the rest of a sorted list, after `done` finished bands and a current band `x` counted `c`
times. -/
theorem bandLoop_spec : ∀ (l : List Int) (x : Int) (done : List Nat) (c z : Nat),
    (x :: l).Pairwise (· ≤ ·) → (x :: l).dedup.length = z + 1 →
    ∃ (n : List Nat) (k : Nat) (uniq : List Int),
      bandLoop l (some x) done.length (done ++ c :: List.replicate z 0) = .ok (done ++ (c + k) :: n) ∧
      Runs l (if k = 0 then uniq else x :: uniq) (if k = 0 then n else k :: n) ∧
      (∀ u ∈ uniq, x < u) ∧ n.length = z ∧ uniq.length = z := by
  intro l
  induction l with
  | nil =>
    intro x done c z _ hz
    have : z = 0 := by simpa using hz.symm
    subst this
    exact ⟨[], 0, [], by simp [bandLoop], by simp [Runs], by simp, rfl, rfl⟩
  | cons y l ih =>
    intro x done c z hs hz
    have hs' := (List.pairwise_cons.mp hs).2
    have hxy : x ≤ y := (List.pairwise_cons.mp hs).1 y (by simp)
    by_cases hyx : x = y
    · subst hyx
      have hz' : (x :: l).dedup.length = z + 1 := by
        rw [List.dedup_cons_of_mem (by simp)] at hz
        exact hz
      obtain ⟨n, k, uniq, h1, h2, h3, h4, h5⟩ := ih x done (c + 1) z hs' hz'
      refine ⟨n, k + 1, uniq, ?_, ?_, h3, h4, h5⟩
      · simp only [bandLoop, or_true, if_true]
        rw [if_pos (by simp)]
        have : (done ++ c :: List.replicate z 0).modify done.length (· + 1) =
            done ++ (c + 1) :: List.replicate z 0 := by
          exact modify_mid done (List.replicate z 0) c
        rw [this, h1]
        congr 3
        omega
      · rw [if_neg (by omega), if_neg (by omega)]
        by_cases hk : k = 0
        · subst hk
          simp only [if_true] at h2
          obtain ⟨r1, r2, r3, r4⟩ := h2
          refine ⟨by simp [r1], List.pairwise_cons.mpr ⟨h3, r2⟩, ?_, ?_⟩
          · intro k hk
            rcases List.mem_cons.mp hk with rfl | hk
            · omega
            · exact r3 k hk
          · simp [← r4]
        · rw [if_neg hk, if_neg hk] at h2
          obtain ⟨r1, r2, r3, r4⟩ := h2
          refine ⟨by simpa using r1, r2, ?_, ?_⟩
          · intro j hj
            rcases List.mem_cons.mp hj with rfl | hj
            · omega
            · exact r3 j (by simp [hj])
          · conv_lhs => rw [r4]
            simp [List.replicate_succ]
    · have hlt : x < y := lt_of_le_of_ne hxy hyx
      have hnot : x ∉ y :: l := by
        intro hm
        rcases List.mem_cons.mp hm with h | h
        · exact hyx h
        · exact absurd ((List.pairwise_cons.mp hs').1 x h) (by omega)
      rw [List.dedup_cons_of_notMem hnot, List.length_cons] at hz
      obtain ⟨z', rfl⟩ : ∃ z', z = z' + 1 := by
        refine ⟨z - 1, ?_⟩
        have : 0 < (y :: l).dedup.length := by
          rw [List.length_pos_iff]
          simp
        omega
      obtain ⟨n, k, uniq, h1, h2, h3, h4, h5⟩ := ih y (done ++ [c]) 1 z' hs' (by omega)
      refine ⟨(1 + k) :: n, 0, y :: uniq, ?_, ?_, ?_, by simp [h4], by simp [h5]⟩
      · simp only [bandLoop, reduceCtorEq, Option.some.injEq, hyx, or_self, if_false]
        rw [if_pos (by simp)]
        have : (done ++ c :: List.replicate (z' + 1) 0).modify (done.length + 1) (· + 1) =
            (done ++ [c]) ++ 1 :: List.replicate z' 0 := by
          rw [show done ++ c :: List.replicate (z' + 1) 0 = (done ++ [c]) ++ 0 :: List.replicate z' 0 by
              simp [List.replicate_succ],
            show done.length + 1 = (done ++ [c]).length by simp]
          exact modify_mid (done ++ [c]) (List.replicate z' 0) 0
        rw [this]
        have h1' := h1
        rw [List.length_append, List.length_singleton] at h1'
        rw [h1']
        simp
      · simp only [if_true]
        by_cases hk : k = 0
        · subst hk
          simp only [if_true] at h2
          obtain ⟨r1, r2, r3, r4⟩ := h2
          refine ⟨by simp [r1], List.pairwise_cons.mpr ⟨h3, r2⟩, ?_, ?_⟩
          · intro j hj
            rcases List.mem_cons.mp hj with rfl | hj
            · omega
            · exact r3 j hj
          · simp [← r4]
        · rw [if_neg hk, if_neg hk] at h2
          obtain ⟨r1, r2, r3, r4⟩ := h2
          refine ⟨by simpa using r1, r2, ?_, ?_⟩
          · intro j hj
            rcases List.mem_cons.mp hj with rfl | hj
            · omega
            · exact r3 j (by simp [hj])
          · conv_lhs => rw [r4]
            simp [Nat.add_comm 1 k, List.replicate_succ]
      · intro u hu
        rcases List.mem_cons.mp hu with rfl | hu
        · exact hlt
        · exact lt_trans hlt (h3 u hu)

/-- C123: for sorted stamps, at least one, the counts per band are right and never fail: there are distinct
bands in increasing order of which the list of bands consists, each repeated as often as counted, and a band's
start is the number of exposures of the bands before it. -/
theorem C123_bands (bands : List Int) (hne : bands ≠ []) (hs : bands.Pairwise (· ≤ ·)) :
    ∃ (bandN bandStart : List Nat) (uniq : List Int), packBands bands = .ok (bandN, bandStart) ∧
      uniq.length = bandN.length ∧ uniq.Pairwise (· < ·) ∧ (∀ k ∈ bandN, 0 < k) ∧
      bands = ((uniq.zip bandN).map fun p => List.replicate p.2 p.1).flatten ∧
      bandStart.length = bandN.length ∧
      ∀ b : Nat, b < bandN.length → bandStart[b]? = some (bandN.take b).sum := by
  obtain ⟨x, l, rfl⟩ := List.exists_cons_of_ne_nil hne
  obtain ⟨z, hz⟩ : ∃ z, (x :: l).dedup.length = z + 1 := by
    refine ⟨(x :: l).dedup.length - 1, ?_⟩
    have : 0 < (x :: l).dedup.length := by
      rw [List.length_pos_iff]
      simp
    omega
  obtain ⟨n, k, uniq, h1, h2, h3, h4, h5⟩ := bandLoop_spec l x [] 1 z hs hz
  have hb : bandLoop (x :: l) none 0 (List.replicate (nBands (x :: l)) 0) = .ok ((1 + k) :: n) := by
    simp only [bandLoop, true_or, if_true, nBands, hz]
    rw [if_pos (by simp)]
    simpa [List.replicate_succ] using h1
  refine ⟨(1 + k) :: n, starts 0 ((1 + k) :: n), x :: uniq, ?_, by simp [h4, h5], ?_, ?_, ?_, ?_, ?_⟩
  · simp only [packBands, hb]
    rw [if_neg (by simp)]
    rfl
  · by_cases hk : k = 0
    · subst hk
      exact List.pairwise_cons.mpr ⟨h3, h2.2.1⟩
    · rw [if_neg hk, if_neg hk] at h2
      exact h2.2.1
  · by_cases hk : k = 0
    · subst hk
      intro j hj
      rcases List.mem_cons.mp hj with rfl | hj
      · omega
      · exact h2.2.2.1 j hj
    · rw [if_neg hk, if_neg hk] at h2
      intro j hj
      rcases List.mem_cons.mp hj with rfl | hj
      · omega
      · exact h2.2.2.1 j (by simp [hj])
  · by_cases hk : k = 0
    · subst hk
      have := h2.2.2.2
      simp only [if_true] at this
      simp [← this]
    · rw [if_neg hk, if_neg hk] at h2
      have := h2.2.2.2
      conv_lhs => rw [this]
      simp [Nat.add_comm 1 k, List.replicate_succ]
  · exact starts_length _ (by simp)
  · intro b hb
    exact starts_getElem? _ _ hb

/-! ## Astrometry -/

theorem allSome_eq {α : Type} : ∀ (l : List (Option α)) (r : List α), allSome l = some r ↔ l = r.map some
  | [], r => by cases r <;> simp [allSome]
  | none :: l, r => by cases r <;> simp [allSome]
  | some a :: l, [] => by simp [allSome]
  | some a :: l, b :: r => by
    simp only [allSome, Option.map_eq_some_iff, List.map_cons, List.cons.injEq, Option.some.injEq]
    constructor
    · rintro ⟨x, hx, rfl, rfl⟩
      exact ⟨rfl, (allSome_eq l x).mp hx⟩
    · rintro ⟨rfl, h⟩
      exact ⟨r, (allSome_eq l r).mpr h, rfl, rfl⟩

/-- Reading one entry of a list read entry by entry. -/
theorem allSome_get {α : Type} {l : List (Option α)} {r : List α} (h : allSome l = some r) (k : Nat) :
    l[k]? = (r[k]?).map some := by
  rw [(allSome_eq l r).mp h, List.getElem?_map]

/-- A list without gaps can be read. -/
theorem allSome_ok {α β : Type} (f : α → Option β) : ∀ l : List α, (∀ a ∈ l, ∃ b, f a = some b) →
    ∃ r, allSome (l.map f) = some r
  | [], _ => ⟨[], rfl⟩
  | a :: l, h => by
    obtain ⟨b, hb⟩ := h a (by simp)
    obtain ⟨r, hr⟩ := allSome_ok f l fun a ha => h a (by simp [ha])
    exact ⟨b :: r, by simp [allSome, hb, hr]⟩

theorem astroLoop_spec (m : Nat) (first : Src K M V) (sources : List (Src K M V)) :
    ∀ (n i : Nat) (a : Astro K M V), astroLoop m first sources i n = .ok a →
      a.D.length = n ∧ a.CW.length = n ∧ a.crpix.length = n ∧ a.crval.length = n ∧ a.G.length = n ∧
      ∀ e : Nat, e < n →
        (∃ d, a.D[e]? = some d ∧ sources.map (fun s => s.scales[i + e]?) = d.map some) ∧
        (∃ c, a.CW[e]? = some c ∧ sources.map (fun s => s.cds[i + e]?) = c.map some) ∧
        (∃ p, a.crpix[e]? = some (List.replicate m p) ∧ first.crpixs[i + e]? = some p) ∧
        (∃ v, a.crval[e]? = some (List.replicate m v) ∧ first.crvals[i + e]? = some v) ∧
        ∃ g, a.G[e]? = some g ∧ first.zps[i + e]? = some g := by
  intro n
  induction n with
  | zero =>
    intro i a h
    simp only [astroLoop, Except.ok.injEq] at h
    subst h
    simp
  | succ n ih =>
    intro i a h
    simp only [astroLoop] at h
    cases h1 : astroOne m first sources i with
    | error e => simp [h1] at h
    | ok r =>
      cases h2 : astroLoop m first sources (i + 1) n with
      | error e => simp [h1, h2] at h
      | ok b =>
        simp only [h1, h2, Except.ok.injEq] at h
        subst h
        obtain ⟨l1, l2, l3, l4, l5, hb⟩ := ih (i + 1) b h2
        refine ⟨by simp [l1], by simp [l2], by simp [l3], by simp [l4], by simp [l5], ?_⟩
        intro e he
        cases e with
        | succ e =>
          have := hb e (by omega)
          rw [show i + 1 + e = i + (e + 1) by omega] at this
          simpa using this
        | zero =>
          unfold astroOne at h1
          split at h1
          · rename_i p v g hp hv hg
            split at h1
            · rename_i d c hd hc
              simp only [Except.ok.injEq] at h1
              subst h1
              refine ⟨⟨d, by simp, ?_⟩, ⟨c, by simp, ?_⟩, ⟨p, by simp, by simpa using hp⟩,
                ⟨v, by simp, by simpa using hv⟩, ⟨g, by simp, by simpa using hg⟩⟩
              · simpa using (allSome_eq _ _).mp hd
              · simpa using (allSome_eq _ _).mp hc
            · cases h1
          · cases h1

theorem astroLoop_ok (m : Nat) (first : Src K M V) (sources : List (Src K M V)) :
    ∀ (n i : Nat), (∀ s ∈ sources, i + n ≤ s.scales.length ∧ i + n ≤ s.cds.length) →
      i + n ≤ first.crpixs.length → i + n ≤ first.crvals.length → i + n ≤ first.zps.length →
      ∃ a, astroLoop m first sources i n = .ok a := by
  intro n
  induction n with
  | zero => intro i _ _ _ _; exact ⟨_, rfl⟩
  | succ n ih =>
    intro i h1 h2 h3 h4
    obtain ⟨a, ha⟩ := ih (i + 1) (fun s hs => by have := h1 s hs; omega) (by omega) (by omega) (by omega)
    obtain ⟨d, hd⟩ := allSome_ok (fun s : Src K M V => s.scales[i]?) sources
      fun s hs => ⟨_, List.getElem?_eq_getElem (by have := h1 s hs; omega)⟩
    obtain ⟨c, hc⟩ := allSome_ok (fun s : Src K M V => s.cds[i]?) sources
      fun s hs => ⟨_, List.getElem?_eq_getElem (by have := h1 s hs; omega)⟩
    have e1 : first.crpixs[i]? = some first.crpixs[i] := List.getElem?_eq_getElem (by omega)
    have e2 : first.crvals[i]? = some first.crvals[i] := List.getElem?_eq_getElem (by omega)
    have e3 : first.zps[i]? = some first.zps[i] := List.getElem?_eq_getElem (by omega)
    refine ⟨⟨d :: a.D, c :: a.CW, List.replicate m first.crpixs[i] :: a.crpix,
      List.replicate m first.crvals[i] :: a.crval, first.zps[i] :: a.G⟩, ?_⟩
    simp only [astroLoop, astroOne, e1, e2, e3, hd, hc, ha]

/-- C123: what a static patch holds.  If it is built, the stamps were sorted by band and no mask was given;
the scene had no more sources than active ones; each exposure's range holds the pixels of its stamp followed
by pixels without weight; for each exposure the matrices are those of each source, and the reference points
and the calibration are those of the *first* source; the radii are those of the first source, squared. -/
theorem C123_build (masked : Bool) (stamps : List (Stamp K)) (nActive : Nat) (first : Src K M V)
    (rest : List (Src K M V)) (p : SPatch K M V)
    (h : build masked stamps nActive (first :: rest) = .ok p) :
    masked = false ∧ stamps ≠ [] ∧ (stamps.map (·.band)).Pairwise (· ≤ ·) ∧
    (first :: rest).length ≤ nActive ∧ p.nSources = nActive ∧
    p.rad2 = first.radii.map (fun r => r ^ 2) ∧ p.bandN.sum = stamps.length ∧
    ∀ (e : Nat) (st : Stamp K), stamps[e]? = some st →
      (∃ (s n : Nat) (pad : List (Pixel K)), p.exposureStart[e]? = some s ∧ p.exposureN[e]? = some n ∧
        (p.pix.drop s).take n = st.pix ++ pad ∧ pad.length < 32 ∧ n % 32 = 0 ∧ ∀ x ∈ pad, x.ierr = 0) ∧
      (∀ (k : Nat) (src : Src K M V), (first :: rest)[k]? = some src →
        (∃ d, (p.astro.D[e]?).bind (fun r => r[k]?) = some d ∧ src.scales[e]? = some d) ∧
        (∃ c, (p.astro.CW[e]?).bind (fun r => r[k]?) = some c ∧ src.cds[e]? = some c) ∧
        (∃ v, (p.astro.crpix[e]?).bind (fun r => r[k]?) = some v ∧ first.crpixs[e]? = some v) ∧
        ∃ v, (p.astro.crval[e]?).bind (fun r => r[k]?) = some v ∧ first.crvals[e]? = some v) ∧
      ∃ g, p.astro.G[e]? = some g ∧ first.zps[e]? = some g := by
  unfold build at h
  split at h
  · cases h
  rename_i hsort
  simp only [Bool.not_eq_false] at hsort
  have hs := (sortedBands_iff _).mp hsort
  split at h
  · cases h
  rename_i hm
  simp only [Bool.not_eq_true] at hm
  split at h
  · rename_i px bn rd as hpx hbn hrd has
    injection h with h
    subst h
    have hne : stamps ≠ [] := by
      rintro rfl
      simp [packBands, bandLoop, nBands] at hbn
    obtain ⟨pix, start, N, q1, q2, q3, q4, q5⟩ := C43_staticPack (stamps.map (·.pix)) (by simpa using hne)
    rw [q1] at hpx
    simp only [liftErr, Except.ok.injEq] at hpx
    subst hpx
    obtain ⟨bandN, bandStart, uniq, b1, b2, _, _, b4, _, _⟩ := C123_bands (stamps.map (·.band))
      (by simpa using hne) hs
    rw [b1] at hbn
    injection hbn with hbn
    subst hbn
    simp only [packRadii, Except.ok.injEq] at hrd
    subst hrd
    simp only [packAstrometry] at has
    have hlen0 : stamps.length ≠ 0 := by simpa using hne
    split at has
    · cases has
    rename_i hle
    have hle' : (first :: rest).length ≤ nActive := by
      by_contra hc
      exact hle ⟨hlen0, by omega⟩
    obtain ⟨_, _, _, _, _, hA⟩ := astroLoop_spec nActive first (first :: rest) stamps.length 0 as has
    refine ⟨hm, hne, hs, hle', rfl, by simp [pow_two], ?_, ?_⟩
    · have := congrArg List.length b4
      rw [List.length_map, List.length_flatten, List.map_map] at this
      have e : (List.length ∘ fun p : Int × Nat => List.replicate p.2 p.1) = Prod.snd := by
        funext p
        simp
      rw [e, List.map_snd_zip (by omega)] at this
      exact this.symm
    · intro e st hst
      have he : e < stamps.length := (List.getElem?_eq_some_iff.mp hst).1
      obtain ⟨⟨d, d1, d2⟩, ⟨c, c1, c2⟩, ⟨v, v1, v2⟩, ⟨w, w1, w2⟩, g, g1, g2⟩ := hA e he
      rw [Nat.zero_add] at d2 c2 v2 w2 g2
      refine ⟨?_, ?_, g, g1, g2⟩
      · have he1 : e < start.length := by rw [q3]; simpa using he
        have he2 : e < N.length := by rw [q2]; simpa using he
        obtain ⟨st', r1, r2⟩ := q5 e start[e] N[e] (List.getElem?_eq_getElem he1) (List.getElem?_eq_getElem he2)
        rw [List.getElem?_map, hst, Option.map_some, Option.some.injEq] at r1
        subst r1
        obtain ⟨s1, pad, s2, s3, s4⟩ := C43_static st.pix
        refine ⟨start[e], N[e], pad, List.getElem?_eq_getElem he1, List.getElem?_eq_getElem he2,
          by rw [r2, s2], s3, ?_, fun x hx => (s4 x hx).1⟩
        have hN : N = (stamps.map (·.pix)).map fun s => s.length + staticPad s.length := by
          simp only [staticPackPix] at q1
          split at q1
          · injection q1 with q1
            injection q1 with _ q1
            injection q1 with _ q1
            exact q1.symm
          · cases q1
        have hNe : N[e]? = some (staticPadded st.pix).length := by
          rw [hN, List.getElem?_map, List.getElem?_map, hst]
          simp [staticPadded]
        rw [List.getElem?_eq_getElem he2, Option.some.injEq] at hNe
        rw [hNe]
        exact s1
      · intro k src hk
        have hkl : k < nActive := lt_of_lt_of_le (List.getElem?_eq_some_iff.mp hk).1 hle'
        refine ⟨?_, ?_, ⟨v, ?_, v2⟩, ⟨w, ?_, w2⟩⟩
        · have := congrArg (fun l => l[k]?) d2
          simp only [List.getElem?_map, hk, Option.map_some] at this
          cases hd : d[k]? with
          | none => simp [hd] at this
          | some x => exact ⟨x, by simp [d1, hd], by simpa [hd] using this⟩
        · have := congrArg (fun l => l[k]?) c2
          simp only [List.getElem?_map, hk, Option.map_some] at this
          cases hd : c[k]? with
          | none => simp [hd] at this
          | some x => exact ⟨x, by simp [c1, hd], by simpa [hd] using this⟩
        · simp [v1, List.getElem?_replicate, hkl]
        · simp [w1, List.getElem?_replicate, hkl]
  all_goals cases h

/-- C123: and it is built whenever the stamps are sorted by band, no mask is given, all sources of the scene
are active and each carries its matrices for all exposures, the first one also its reference points and
calibrations. -/
theorem C123_built (stamps : List (Stamp K)) (hne : stamps ≠ []) (hs : (stamps.map (·.band)).Pairwise (· ≤ ·))
    (first : Src K M V) (rest : List (Src K M V))
    (hm : ∀ s ∈ first :: rest, stamps.length ≤ s.scales.length ∧ stamps.length ≤ s.cds.length)
    (hp : stamps.length ≤ first.crpixs.length) (hv : stamps.length ≤ first.crvals.length)
    (hz : stamps.length ≤ first.zps.length) :
    ∃ p, build false stamps (first :: rest).length (first :: rest) = .ok p := by
  obtain ⟨pix, start, N, q1, _⟩ := C43_staticPack (stamps.map (·.pix)) (by simpa using hne)
  obtain ⟨bandN, bandStart, uniq, b1, _⟩ := C123_bands (stamps.map (·.band)) (by simpa using hne) hs
  obtain ⟨a, ha⟩ := astroLoop_ok (first :: rest).length first (first :: rest) stamps.length 0
    (by simpa using hm) (by simpa using hp) (by simpa using hv) (by simpa using hz)
  refine ⟨⟨pix, start, N, bandN, bandStart, (first :: rest).length, first.radii.map fun r => r * r, a⟩, ?_⟩
  have hsort := (sortedBands_iff _).mpr hs
  simp only [build, hsort, q1, b1, packRadii, packAstrometry, ha, liftErr, Bool.true_eq_false, if_false,
    Bool.false_eq_true, lt_irrefl, and_false]

/-- C123, the way the code fails: with a mask, or with a scene that has more sources than active ones, no
patch is built from any stamps. -/
theorem C123_build_refuted (stamps : List (Stamp K)) (nActive : Nat) (sources : List (Src K M V)) :
    (∃ e, build true stamps nActive sources = .error e) ∧
    (nActive < sources.length → ∃ e, build false stamps nActive sources = .error e) := by
  constructor
  · unfold build
    split
    · exact ⟨_, rfl⟩
    · exact ⟨_, rfl⟩
  · intro hlt
    cases hb : build false stamps nActive sources with
    | error e => exact ⟨e, rfl⟩
    | ok p =>
      cases sources with
      | nil => simp at hlt
      | cons f r =>
        have := (C123_build false stamps nActive f r p hb).2.2.2.1
        omega

/-- The number of times the band changes along a list of stamps. -/
def changes : List Int → Nat
  | a :: b :: l => (if a = b then 0 else 1) + changes (b :: l)
  | _ => 0

theorem bandLoop_error : ∀ (l : List Int) (x : Int) (b : Nat) (bandN : List Nat), b < bandN.length →
    ((∃ e, bandLoop l (some x) b bandN = .error e) ↔ bandN.length ≤ b + changes (x :: l)) := by
  intro l
  induction l with
  | nil =>
    intro x b bandN h
    simp [bandLoop, changes]
    exact h
  | cons y l ih =>
    intro x b bandN h
    by_cases hxy : x = y
    · subst hxy
      have := ih x b (bandN.modify b (· + 1)) (by simpa using h)
      simp only [bandLoop, changes, if_true, or_true, if_pos h]
      simpa using this
    · simp only [bandLoop, changes, if_neg hxy, reduceCtorEq, Option.some.injEq, false_or]
      by_cases hb : b + 1 < bandN.length
      · rw [if_pos hb]
        have := ih y (b + 1) (bandN.modify (b + 1) (· + 1)) (by simpa using hb)
        rw [this]
        simp only [List.length_modify]
        omega
      · rw [if_neg hb]
        constructor
        · intro _
          omega
        · intro _
          exact ⟨_, rfl⟩

/-- C123, why the order of the stamps matters: exposures of bands cannot be counted exactly when there are no
stamps or the band changes at least as often along the stamps as there are distinct bands, that is, when a
band comes back after another. -/
theorem C123_unordered (bands : List Int) :
    (∃ e, packBands bands = .error e) ↔ bands = [] ∨ bands.dedup.length ≤ changes bands := by
  cases bands with
  | nil => simp [packBands, bandLoop, nBands]
  | cons x l =>
    have hpos : 0 < nBands (x :: l) := by
      unfold nBands
      rw [List.length_pos_iff]
      simp
    have key := bandLoop_error l x 0 ((List.replicate (nBands (x :: l)) 0).modify 0 (· + 1)) (by simpa using hpos)
    have hstep : bandLoop (x :: l) none 0 (List.replicate (nBands (x :: l)) 0) =
        bandLoop l (some x) 0 ((List.replicate (nBands (x :: l)) 0).modify 0 (· + 1)) := by
      simp only [bandLoop, true_or, if_true]
      rw [if_pos (by simpa using hpos)]
    simp only [List.length_modify, List.length_replicate, Nat.zero_add] at key
    simp only [reduceCtorEq, false_or]
    rw [show (x :: l).dedup.length = nBands (x :: l) from rfl, ← key]
    unfold packBands
    rw [hstep]
    cases hb : bandLoop l (some x) 0 ((List.replicate (nBands (x :: l)) 0).modify 0 (· + 1)) with
    | error e => simp
    | ok r =>
      have hr : r ≠ [] := by
        have hlen : ∀ (l : List Int) (p : Option Int) (b : Nat) (m r : List Nat), bandLoop l p b m = .ok r →
            r.length = m.length := by
          intro l
          induction l with
          | nil =>
            intro p b m r h
            simp only [bandLoop, Except.ok.injEq] at h
            rw [h]
          | cons y l ih =>
            intro p b m r h
            simp only [bandLoop] at h
            split_ifs at h
            all_goals simpa using ih _ _ _ _ h
        have := hlen _ _ _ _ _ hb
        rintro rfl
        simp at this
        omega
      simp [hr]

/-- The bands 1, 2, 1 are refused, 1, 1, 2 are not. -/
example : (∃ e, packBands [1, 2, 1] = .error e) ∧ ¬ ∃ e, packBands [1, 1, 2] = .error e := by
  constructor
  · exact (C123_unordered _).2 (by decide)
  · exact fun h => absurd ((C123_unordered _).1 h) (by decide)

/-- C123: a scene without sources has no astrometry for any exposure. -/
theorem C123_no_sources (nExp nActive : Nat) :
    (∃ a, packAstrometry nExp nActive ([] : List (Src K M V)) = .ok a) ↔ nExp = 0 := by
  unfold packAstrometry
  by_cases h : nExp = 0 <;> simp [h]

/-! ## Taking a patch apart -/

/-- C123, partial: were the class of stamps known to the module, taking a patch apart would give back the
stamps in order, each with its pixels followed by fewer than 32 pixels without weight.  (The full statement
asks for the stamps themselves, with their reference pixels, see `C123_stamps_refuted` and
`C123_crpix_refuted`.) -/
theorem C123_stamps_partial (stamps : List (Stamp K)) (nActive : Nat) (first : Src K M V)
    (rest : List (Src K M V)) (p : SPatch K M V)
    (h : build false stamps nActive (first :: rest) = .ok p) :
    ∃ back, toStamps true p = .ok back ∧ back.length = stamps.length ∧
      ∀ (e : Nat) (st : Stamp K), stamps[e]? = some st → ∃ (b : Back K V) (pad : List (Pixel K)),
        back[e]? = some b ∧ b.pix = st.pix ++ pad ∧ pad.length < 32 ∧ (∀ x ∈ pad, x.ierr = 0) ∧
        (pad = [] ↔ st.pix.length % 32 = 0) ∧ first.crvals[e]? = some b.crpix := by
  obtain ⟨_, hne, hs, hact, _, _, hsum, hB⟩ := C123_build _ _ _ _ _ _ h
  have hpix : p.pix = (stamps.map fun s => staticPadded s.pix).flatten ∧
      p.exposureN = (stamps.map fun s => staticPadded s.pix).map List.length := by
    unfold build at h
    split at h
    · cases h
    split at h
    · cases h
    split at h
    · rename_i px bn rd as hpx hbn hrd has
      injection h with h
      subst h
      simp only [staticPackPix] at hpx
      split at hpx
      · simp only [liftErr, Except.ok.injEq] at hpx
        subst hpx
        refine ⟨by simp [Function.comp_def], ?_⟩
        simp [Function.comp_def, staticPadded]
      · simp [liftErr] at hpx
    all_goals cases h
  have hparts : npSplit p.pix (cumsum p.exposureN).dropLast = stamps.map fun s => staticPadded s.pix := by
    rw [hpix.1, hpix.2]
    have := npSplit_flatten (stamps.map fun s => staticPadded s.pix) (by simpa using hne)
    rw [cumsum, ← cumsumFrom_dropLast] at this
    exact this
  have hlook : ∀ e ∈ List.range p.bandN.sum, ∃ st, stamps[e]? = some st := by
    intro e he
    rw [hsum, List.mem_range] at he
    exact ⟨_, List.getElem?_eq_getElem he⟩
  obtain ⟨ps, hps⟩ := allSome_ok (fun e : Nat => (stamps.map fun s => staticPadded s.pix)[e]?)
    (List.range p.bandN.sum) fun e he => by
      obtain ⟨st, hst⟩ := hlook e he
      exact ⟨staticPadded st.pix, by simp [hst]⟩
  obtain ⟨cs, hcs⟩ := allSome_ok (fun e : Nat => (p.astro.crpix[e]?).bind fun r => r[0]?)
    (List.range p.bandN.sum) fun e he => by
      obtain ⟨st, hst⟩ := hlook e he
      obtain ⟨v, hv, _⟩ := ((hB e st hst).2.1 0 first rfl).2.2.1
      exact ⟨v, hv⟩
  obtain ⟨vs, hvs⟩ := allSome_ok (fun e : Nat => (p.astro.crval[e]?).bind fun r => r[0]?)
    (List.range p.bandN.sum) fun e he => by
      obtain ⟨st, hst⟩ := hlook e he
      obtain ⟨v, hv, _⟩ := ((hB e st hst).2.1 0 first rfl).2.2.2
      exact ⟨v, hv⟩
  have l1 : ps.length = stamps.length := by
    have := congrArg List.length ((allSome_eq _ _).mp hps)
    simp only [List.length_map, List.length_range] at this
    omega
  have l2 : vs.length = stamps.length := by
    have := congrArg List.length ((allSome_eq _ _).mp hvs)
    simp only [List.length_map, List.length_range] at this
    omega
  refine ⟨List.zipWith (fun a b => ⟨a, b⟩) ps vs, ?_, by simp [l1, l2], ?_⟩
  · simp only [toStamps, toStampsBody, hparts, hps, hcs, hvs, Bool.true_eq_false, false_and, if_false]
  · intro e st hst
    have he : e < stamps.length := (List.getElem?_eq_some_iff.mp hst).1
    have a1 := allSome_get hps e
    have a2 := allSome_get hvs e
    rw [List.getElem?_map, List.getElem?_range (by omega), Option.map_some] at a1 a2
    rw [List.getElem?_map, hst, Option.map_some] at a1
    obtain ⟨v, hv, hv'⟩ := ((hB e st hst).2.1 0 first rfl).2.2.2
    rw [hv] at a2
    have b1 : ps[e]? = some (staticPadded st.pix) := by
      cases hh : ps[e]? with
      | none => simp [hh] at a1
      | some x =>
        simp only [hh, Option.map_some, Option.some.injEq] at a1
        rw [a1]
    have b2 : vs[e]? = some v := by
      cases hh : vs[e]? with
      | none => simp [hh] at a2
      | some x =>
        simp only [hh, Option.map_some, Option.some.injEq] at a2
        rw [a2]
    refine ⟨⟨staticPadded st.pix, v⟩, List.replicate (staticPad st.pix.length) ⟨0, 0, 0, 0⟩, ?_, rfl, ?_, ?_,
      ?_, hv'⟩
    · simp [List.getElem?_zipWith, b1, b2]
    · rw [List.length_replicate, staticPad]
      omega
    · intro x hx
      rw [List.eq_of_mem_replicate hx]
    · rw [List.replicate_eq_nil_iff, staticPad]
      omega

/-- C123, the way the code fails: the module does not know the class of stamps, so no patch that was built
can be taken apart. -/
theorem C123_stamps_refuted (masked : Bool) (stamps : List (Stamp K)) (nActive : Nat) (first : Src K M V)
    (rest : List (Src K M V)) (p : SPatch K M V) (h : build masked stamps nActive (first :: rest) = .ok p) :
    toStamps false p = .error .nameError := by
  obtain ⟨_, hne, _, _, _, _, hsum, _⟩ := C123_build _ _ _ _ _ _ h
  have : p.bandN.sum ≠ 0 := by
    rw [hsum]
    simpa using hne
  simp [toStamps, this]

/-- Two stamps of one band and one of another, two sources with their own matrices. -/
def exStamps : List (Stamp Rat) := [⟨1, [⟨3, 1, 0, 0⟩]⟩, ⟨1, []⟩, ⟨4, [⟨5, 2, 0, 1⟩, ⟨6, 2, 1, 1⟩]⟩]

/-- The first source; its reference pixels differ from its reference points on the sky. -/
def exFirst : Src Rat Nat Nat := ⟨[1, 2, 3], [4, 5, 6], [10, 11, 12], [20, 21, 22], [1, 1, 2], [3]⟩

/-- The second source has other reference pixels. -/
def exSecond : Src Rat Nat Nat := ⟨[7, 8, 9], [4, 5, 6], [90, 91, 92], [20, 21, 22], [5, 5, 5], [4]⟩

/-- The hypotheses of `C123_built` hold for these, and the code loses information: a taken-apart patch has the
sky coordinates where the reference pixels should be, and the second source is packed with the reference
pixels of the first. -/
theorem C123_crpix_refuted : ∃ p, build false exStamps 2 [exFirst, exSecond] = .ok p ∧
    p.bandN = [2, 1] ∧ p.bandStart = [0, 2] ∧ p.astro.crpix = [[10, 10], [11, 11], [12, 12]] ∧
    p.astro.D = [[1, 7], [2, 8], [3, 9]] ∧ p.rad2 = [9] ∧
    ∃ back, toStamps true p = .ok back ∧ back.map (·.crpix) = [20, 21, 22] := by
  cases hp : build false exStamps 2 [exFirst, exSecond] with
  | error e =>
    have h : (match build false exStamps 2 [exFirst, exSecond] with | .ok _ => true | .error _ => false) = true := by
      decide +kernel
    simp [hp] at h
  | ok p =>
    have h : (match build false exStamps 2 [exFirst, exSecond] with
        | .ok p => decide (p.bandN = [2, 1] ∧ p.bandStart = [0, 2] ∧
            p.astro.crpix = [[10, 10], [11, 11], [12, 12]] ∧ p.astro.D = [[1, 7], [2, 8], [3, 9]] ∧
            p.rad2 = [9] ∧ (match toStamps true p with
              | .ok b => b.map (·.crpix)
              | .error _ => []) = [20, 21, 22])
        | .error _ => false) = true := by decide +kernel
    rw [hp] at h
    simp only [decide_eq_true_iff] at h
    obtain ⟨h1, h2, h3, h4, h5, h6⟩ := h
    obtain ⟨back, hb, _⟩ := C123_stamps_partial exStamps 2 exFirst [exSecond] p hp
    rw [hb] at h6
    exact ⟨p, rfl, h1, h2, h3, h4, h5, back, hb, h6⟩

/-! ## PSFs -/

variable {γ : Type}

/-- `Source.psfgauss` (sources.py:401-432) for one exposure: `psfs` holds the parameters of the gaussians for
each profile radius, the result carries the number of the radius. -/
def psfgauss (nRadii : Nat) (psfs : List (List γ)) : Except SErr (List (γ × Nat)) :=
  if psfs.length = nRadii then .ok (psfs.zipIdx.map fun p => p.1.map fun g => (g, p.2)).flatten
  else .error .assertionError

/-- The loops of `StaticPatch.pack_psf` (static_patch.py:164-176) from exposure `e` on, `s` gaussians in. -/
def psfLoop (total : Nat) (start : List Nat) : List γ × Nat → Nat → List (List (List γ)) → Except SErr (List γ)
  | (acc, _), _, [] => .ok acc
  | (acc, s), e, ex :: l =>
    match packSources total (acc, s) ex with
    | .error err => liftErr (.error err)
    | .ok st =>
      if l ≠ [] ∧ start[e + 1]? ≠ some st.2 then .error .assertionError else psfLoop total start st (e + 1) l

/-- `StaticPatch.pack_psf` (static_patch.py:136-176): `nPsf` is the scene's number of gaussians per source in
each band, `psfs` what `psfgauss` returns for each exposure and source.  The result is the part of the array
that is filled, and `psfgauss_start`. -/
def packPsf (nPsf bandN : List Nat) (nSources : Nat) (psfs : List (List (List γ))) :
    Except SErr (List γ × List Nat) :=
  let start := staticPsfStart nPsf bandN nSources
  match psfLoop (staticPsfSize nPsf psfs.length nSources) start ([], 0) 0 psfs with
  | .error e => .error e
  | .ok gs => .ok (gs, start)

theorem psfLoop_ok (total : Nat) (start : List Nat) : ∀ (l : List (List (List γ))) (acc : List γ) (e : Nat),
    acc.length + l.flatten.flatten.length ≤ total →
    (∀ k : Nat, 0 < k → k < l.length →
      start[e + k]? = some (acc.length + (l.take k).flatten.flatten.length)) →
    psfLoop total start (acc, acc.length) e l = .ok (acc ++ l.flatten.flatten)
  | [], acc, e, _, _ => by simp [psfLoop]
  | ex :: l, acc, e, ht, hst => by
    rw [List.flatten_cons, List.flatten_append, List.length_append] at ht
    simp only [psfLoop]
    rw [packSources_succeeds rfl (by omega)]
    simp only
    rw [if_neg]
    · have ih := psfLoop_ok total start l (acc ++ ex.flatten) (e + 1)
        (by rw [List.length_append]; omega) (fun k h0 hk => by
          have := hst (k + 1) (by omega) (by simpa using hk)
          rw [show e + 1 + k = e + (k + 1) by omega, this]
          simp [Nat.add_assoc])
      rw [List.length_append] at ih
      rw [ih]
      simp
    · rintro ⟨hne, hc⟩
      apply hc
      have := hst 1 (by omega) (by
        have : 0 < l.length := List.length_pos_iff.mpr hne
        simp only [List.length_cons]
        omega)
      simpa using this

/-- C123: if in each band every source has as many gaussians in each exposure as the scene says, packing
succeeds, and gaussian `p` of source `g` in exposure `e` is found at the start of the exposure plus
`g*n + p`.  `groups` lists the exposures band by band. -/
theorem C123_psf (nSources : Nat) (groups : List (Nat × List (List (List γ))))
    (hsrc : ∀ g ∈ groups, ∀ e ∈ g.2, e.length = nSources ∧ ∀ ps ∈ e, ps.length = g.1) :
    ∃ gs start, packPsf (groups.map (·.1)) (groups.map fun g => g.2.length) nSources
        (groups.map (·.2)).flatten = .ok (gs, start) ∧
      ∀ (e g n : Nat) (blk : List (List γ)) (ps : List γ),
        (groups.map (·.2)).flatten[e]? = some blk → blk[g]? = some ps → ps.length = n →
        ∃ s, start[e]? = some s ∧ ∀ p : Nat, p < n → gs[s + (g * n + p)]? = ps[p]? := by
  have hstart := fun e he => C45_static nSources groups hsrc e he
  have htot : (groups.map (·.2)).flatten.flatten.flatten.length ≤
      staticPsfSize (groups.map (·.1)) (groups.map (·.2)).flatten.length nSources := by
    have hone : ∀ ex ∈ (groups.map (·.2)).flatten, ex.flatten.length ≤ (groups.map (·.1)).sum * nSources := by
      intro ex hex
      obtain ⟨l, hl, hex⟩ := List.mem_flatten.mp hex
      obtain ⟨g, hg, rfl⟩ := List.mem_map.mp hl
      obtain ⟨h1, h2⟩ := hsrc g hg ex hex
      rw [Util.length_flatten_const ex h2, h1, Nat.mul_comm]
      exact Nat.mul_le_mul_right _ (List.single_le_sum (by simp) _ (List.mem_map.mpr ⟨g, hg, rfl⟩))
    have : ∀ l : List (List (List γ)), (∀ ex ∈ l, ex.flatten.length ≤ (groups.map (·.1)).sum * nSources) →
        l.flatten.flatten.length ≤ (groups.map (·.1)).sum * l.length * nSources := by
      intro l
      induction l with
      | nil => simp
      | cons x l ih =>
        intro h
        have h1 := h x (by simp)
        have h2 := ih fun ex hex => h ex (by simp [hex])
        rw [List.flatten_cons, List.flatten_append, List.length_append, List.length_cons]
        calc _ ≤ (groups.map (·.1)).sum * nSources + (groups.map (·.1)).sum * l.length * nSources :=
              Nat.add_le_add h1 h2
          _ = _ := by ring
    exact this _ hone
  refine ⟨(groups.map (·.2)).flatten.flatten.flatten,
    staticPsfStart (groups.map (·.1)) (groups.map fun g => g.2.length) nSources, ?_, ?_⟩
  · simp only [packPsf]
    have := psfLoop_ok (staticPsfSize (groups.map (·.1)) (groups.map (·.2)).flatten.length nSources)
      (staticPsfStart (groups.map (·.1)) (groups.map fun g => g.2.length) nSources)
      (groups.map (·.2)).flatten [] 0 (by simpa using htot) (fun k _ hk => by
        rw [Nat.zero_add, hstart k hk]
        simp)
    rw [List.length_nil, List.nil_append] at this
    rw [this]
  · intro e g n blk ps hblk hg hn
    have he : e < (groups.map (·.2)).flatten.length := (List.getElem?_eq_some_iff.mp hblk).1
    refine ⟨_, hstart e he, ?_⟩
    intro p hp
    obtain ⟨l, hl, hex⟩ := List.mem_flatten.mp (List.mem_of_getElem? hblk)
    obtain ⟨gr, hgr, rfl⟩ := List.mem_map.mp hl
    obtain ⟨h1, h2⟩ := hsrc gr hgr blk hex
    have hgn : gr.1 = n := by rw [← hn, h2 ps (List.mem_of_getElem? hg)]
    have hconst : ∀ ps ∈ blk, ps.length = n := fun ps hps => by rw [h2 ps hps, hgn]
    have hgl := (List.getElem?_eq_some_iff.mp hg).1
    have hlt : g * n + p < blk.flatten.length := by
      rw [Util.length_flatten_const blk hconst]
      calc g * n + p < g * n + n := by omega
        _ = (g + 1) * n := by ring
        _ ≤ blk.length * n := Nat.mul_le_mul_right _ hgl
    have hb : ((groups.map (·.2)).flatten.map List.flatten)[e]? = some blk.flatten := by
      rw [List.getElem?_map, hblk]
      rfl
    have := flatten_block _ e _ _ hb hlt
    rw [← List.flatten_flatten, Util.flatten_const blk hconst hg hp] at this
    rw [← this]
    congr 2
    rw [List.flatten_flatten, List.length_flatten, List.map_take]

/-- C123: the gaussians of a source for one exposure are those of all radii in order, each with the number of
its radius. -/
theorem C123_psfgauss (nRadii : Nat) (psfs : List (List γ)) :
    (psfs.length ≠ nRadii → psfgauss nRadii psfs = .error .assertionError) ∧
    (psfs.length = nRadii → ∃ l, psfgauss nRadii psfs = .ok l ∧ l.map (·.1) = psfs.flatten ∧
      ∀ (r i : Nat) (ps : List γ) (g : γ), psfs[r]? = some ps → ps[i]? = some g →
        l[((psfs.take r).map List.length).sum + i]? = some (g, r)) := by
  constructor
  · intro h
    simp [psfgauss, h]
  · intro h
    refine ⟨(psfs.zipIdx.map fun p => p.1.map fun g => (g, p.2)).flatten, by simp [psfgauss, h], ?_, ?_⟩
    · have : ∀ (l : List (List γ)) (k : Nat),
          ((l.zipIdx k).map fun p => p.1.map fun g => (g, p.2)).flatten.map (·.1) = l.flatten := by
        intro l
        induction l with
        | nil => simp
        | cons x l ih =>
          intro k
          simp [List.zipIdx_cons, ih, Function.comp_def]
      exact this psfs 0
    · intro r i ps g hr hi
      have hb : (psfs.zipIdx.map fun p => p.1.map fun g => (g, p.2))[r]? = some (ps.map fun g => (g, r)) := by
        simp [List.getElem?_zipIdx, hr]
      have hlt : i < (ps.map fun g => (g, r)).length := by
        simpa using (List.getElem?_eq_some_iff.mp hi).1
      have := flatten_block _ r _ i hb hlt
      rw [List.getElem?_map, hi, Option.map_some] at this
      rw [← this]
      congr 3
      rw [← List.map_take, List.map_map]
      have hz : (List.take r psfs.zipIdx).map (fun p => p.1.length) = (psfs.take r).map List.length := by
        rw [List.map_take, List.map_take]
        congr 1
        have : ∀ (l : List (List γ)) (k : Nat), (l.zipIdx k).map (fun p => p.1.length) = l.map List.length := by
          intro l
          induction l with
          | nil => simp
          | cons x l ih => intro k; simp [List.zipIdx_cons, ih]
        exact this psfs 0
      rw [← hz]
      congr 1
      funext p
      simp

/-- Two bands, one and two gaussians per source, two sources. -/
example : packPsf [1, 2] [2, 1] 2 [[[1], [2]], [[3], [4]], [[5, 6], [7, 8]]] =
    .ok ([1, 2, 3, 4, 5, 6, 7, 8], [0, 2, 4]) := by decide

/-- A source with a gaussian too many is noticed unless it is in the last exposure. -/
example : packPsf [1] [2] 1 [[[1, 9]], [[3]]] = .error .assertionError ∧
    packPsf [1, 1] [1, 1] 1 [[[1]], [[3, 9]]] = .ok ([1, 3, 9], [0, 1]) := by decide

end Forcepho.Patch.Static
