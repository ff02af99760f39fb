import Verif.Wcs.Props

/-! # C127, C128: the WCS wrapper (forcepho/utils/wcs.py:13-88) and the file handles of the stores
(forcepho/patches/storage.py:287-299, 577-578) -/

set_option autoImplicit false

namespace Forcepho.Wcs

open Kernel (M22)

/-- What is wrapped: an astropy WCS, or a gwcs object, which has neither a distortion flag nor a pixel scale
matrix. -/
inductive Wrapped
  | astropy (w : WcsObj)
  | gwcs (toPix toSky : ℝ × ℝ → ℝ × ℝ)

/-- Exceptions. -/
inductive WErr
  | typeError
  | linAlgError
deriving DecidableEq

/-- `FWCS.is_normal` (wcs.py:20-22). -/
def Wrapped.isNormal : Wrapped → Bool
  | .astropy _ => true
  | .gwcs _ _ => false

/-- `FWCS.has_distortion` (wcs.py:24-30). -/
def Wrapped.hasDistortion : Wrapped → Bool
  | .astropy w => w.hasDistortion
  | .gwcs _ _ => true

/-- `FWCS.pixel_scale_matrix` (wcs.py:32-38). -/
def Wrapped.pixelScale : Wrapped → Except WErr M22
  | .astropy w => .ok w.pixelScaleMatrix
  | .gwcs _ _ => .error .typeError

/-- A call with positional arguments; keyword arguments are swallowed by `**extras` (wcs.py:46-50).  Only calls
with numbers are modelled. -/
def twoArgs (f : ℝ × ℝ → ℝ × ℝ) (args : List ℝ) : Except WErr (ℝ × ℝ) :=
  match args with
  | [x, y] => .ok (f (x, y))
  | _ => .error .typeError

/-- The conversion functions of the wrapped object; both kinds of object count pixels from zero. -/
def Wrapped.skyOf : Wrapped → ℝ × ℝ → ℝ × ℝ
  | .astropy w => w.toSky
  | .gwcs _ s => s

/-- See `Wrapped.skyOf`. -/
def Wrapped.pixOf : Wrapped → ℝ × ℝ → ℝ × ℝ
  | .astropy w => w.toPix
  | .gwcs p _ => p

/-- `FWCS.pixel_to_world_values` (wcs.py:46-47) and `FWCS.all_pix2world` (wcs.py:40-41), with the keywords. -/
def Wrapped.pix2world (f : Wrapped) (args : List ℝ) (_kwargs : List (String × ℝ)) : Except WErr (ℝ × ℝ) :=
  twoArgs f.skyOf args

/-- `FWCS.world_to_pixel_values` (wcs.py:49-50) and `FWCS.all_world2pix` (wcs.py:43-44). -/
def Wrapped.world2pix (f : Wrapped) (args : List ℝ) (_kwargs : List (String × ℝ)) : Except WErr (ℝ × ℝ) :=
  twoArgs f.pixOf args

/-- astropy's own `all_pix2world(x, y, origin)`, whose name the wrapper borrows: pixels count from `origin`. -/
def astropyPix2world (w : WcsObj) (args : List ℝ) : Except WErr (ℝ × ℝ) :=
  match args with
  | [x, y, origin] => .ok ((w.shifted origin).toSky (x, y))
  | _ => .error .typeError

/-- `FWCS.scale_at_sky` (wcs.py:61-88): `scale_at_sky` (wcs.py:91-145) applied to the wrapper. -/
noncomputable def Wrapped.scaleAtSky (f : Wrapped) (sky : ℝ × ℝ) (dpix : ℝ) (makeApprox : Bool) :
    Except WErr (M22 × M22) :=
  if f.hasDistortion || makeApprox then
    match Wcs.scaleAtSky ⟨true, f.pixOf, f.skyOf, ⟨0, 0, 0, 0⟩⟩ sky dpix true with
    | some r => .ok r
    | none => .error .linAlgError
  else
    match f.pixelScale with
    | .error e => .error e
    | .ok m =>
      match Wcs.scaleAtSky ⟨false, f.pixOf, f.skyOf, m⟩ sky dpix false with
      | some r => .ok r
      | none => .error .linAlgError

/-- `FWCS.from_image` (wcs.py:52-59): an ASDF tree with a WCS, if the file can be read as such, else the header
of the extension. -/
def fromImage (asdf : Option Wrapped) (header : WcsObj) : Wrapped :=
  match asdf with
  | some w => w
  | none => .astropy header

/-- C127, the wrapper changes nothing: conversions by the wrapper with two numbers are those of the wrapped
object, whatever keywords are given; going forth and back is the identity when it is so for the object; the local
scale of a wrapped astropy WCS is the scale of the WCS itself. -/
theorem C127_transparent (f : Wrapped) (x y : ℝ) (kw kw' : List (String × ℝ)) :
    (∀ w, f = .astropy w → f.pix2world [x, y] kw = .ok (w.toSky (x, y)) ∧
      f.world2pix [x, y] kw = .ok (w.toPix (x, y)) ∧
      ∀ sky dpix approx, f.scaleAtSky sky dpix approx =
        (match Wcs.scaleAtSky w sky dpix approx with | some r => .ok r | none => .error .linAlgError)) ∧
    (∀ p s, f = .gwcs p s → f.pix2world [x, y] kw = .ok (s (x, y)) ∧ f.world2pix [x, y] kw = .ok (p (x, y))) ∧
    ((∀ v, f.pixOf (f.skyOf v) = v) →
      ∃ ra dec, f.pix2world [x, y] kw = .ok (ra, dec) ∧ f.world2pix [ra, dec] kw' = .ok (x, y)) := by
  refine ⟨?_, ?_, ?_⟩
  · rintro w rfl
    refine ⟨rfl, rfl, ?_⟩
    intro sky dpix approx
    cases hd : w.hasDistortion <;> cases approx <;>
      simp [Wrapped.scaleAtSky, Wrapped.hasDistortion, Wrapped.pixelScale, Wcs.scaleAtSky, Wrapped.pixOf,
        Wrapped.skyOf, skySteps, hd]
  · rintro p s rfl
    exact ⟨rfl, rfl⟩
  · intro h
    refine ⟨(f.skyOf (x, y)).1, (f.skyOf (x, y)).2, rfl, ?_⟩
    show Except.ok (f.pixOf (f.skyOf (x, y))) = _
    rw [h]

/-- C127: a wrapped gwcs object always takes the numerical route, with the guarantee of the secant (C57): the
matrix takes the steps on the sky to steps of `dpix` pixels; the missing pixel scale never matters. -/
theorem C127_gwcs (p s : ℝ × ℝ → ℝ × ℝ) (sky : ℝ × ℝ) (dpix : ℝ) (approx : Bool) :
    (Wrapped.gwcs p s).scaleAtSky sky dpix approx ≠ .error .typeError ∧
    ∀ cw d, (Wrapped.gwcs p s).scaleAtSky sky dpix approx = .ok (cw, d) →
      cw.mulVec ((s ((p sky).1 + dpix, (p sky).2)).1 - sky.1, (s ((p sky).1 + dpix, (p sky).2)).2 - sky.2) = (dpix, 0) ∧
      cw.mulVec ((s ((p sky).1, (p sky).2 + dpix)).1 - sky.1, (s ((p sky).1, (p sky).2 + dpix)).2 - sky.2) = (0, dpix) := by
  have he : (Wrapped.gwcs p s).scaleAtSky sky dpix approx =
      (match Wcs.scaleAtSky ⟨true, p, s, ⟨0, 0, 0, 0⟩⟩ sky dpix true with
        | some r => .ok r
        | none => .error .linAlgError) := by
    simp [Wrapped.scaleAtSky, Wrapped.hasDistortion, Wrapped.pixOf, Wrapped.skyOf]
  rw [he]
  cases hs : Wcs.scaleAtSky ⟨true, p, s, ⟨0, 0, 0, 0⟩⟩ sky dpix true with
  | none => exact ⟨by simp, by intro cw d h; cases h⟩
  | some r =>
    refine ⟨by simp, ?_⟩
    intro cw d h
    cases h
    exact C57_secant _ sky dpix true cw d rfl hs

/-- C127, the way the code fails: the functions borrow astropy's names but not their signature.  With the origin as
third argument, which astropy requires, they always raise; with the origin as keyword it is ignored, so
positions are off by the origin unless the object does not depend on the position. -/
theorem C127_origin_refuted (w : WcsObj) (x y origin : ℝ) (kw : List (String × ℝ)) :
    (∃ v, astropyPix2world w [x, y, origin] = .ok v) ∧
    (Wrapped.astropy w).pix2world [x, y, origin] kw = .error .typeError ∧
    (Wrapped.astropy w).world2pix [x, y, origin] kw = .error .typeError ∧
    ((∀ v, w.toPix (w.toSky v) = v) → origin ≠ 0 →
      (Wrapped.astropy w).pix2world [x, y] [("origin", origin)] ≠ astropyPix2world w [x, y, origin]) := by
  refine ⟨⟨_, rfl⟩, rfl, rfl, ?_⟩
  intro hinv h0 h
  have h : w.toSky (x, y) = w.toSky (x - origin, y - origin) := by
    simpa [Wrapped.pix2world, twoArgs, Wrapped.skyOf, astropyPix2world, WcsObj.shifted] using h
  have := congrArg w.toPix h
  rw [hinv, hinv] at this
  have := (Prod.mk.inj this).1
  apply h0
  linarith

/-- C127, reading from a file: the WCS of an ASDF tree takes precedence; without one the result is normal, and
normal means an astropy object. -/
theorem C127_image (asdf : Option Wrapped) (header : WcsObj) :
    (∀ f, asdf = some f → fromImage asdf header = f) ∧
    (asdf = none → (fromImage asdf header).isNormal = true ∧
      (fromImage asdf header).hasDistortion = header.hasDistortion ∧
      (fromImage asdf header).pixelScale = .ok header.pixelScaleMatrix) ∧
    ((fromImage asdf header).isNormal = false → (fromImage asdf header).hasDistortion = true ∧
      (fromImage asdf header).pixelScale = .error .typeError) ∧
    ((fromImage asdf header).isNormal = true ↔ ∃ w, fromImage asdf header = .astropy w) := by
  refine ⟨?_, ?_, ?_, ?_⟩
  · rintro f rfl; rfl
  · rintro rfl; exact ⟨rfl, rfl, rfl⟩
  · cases asdf with
    | none => intro h; cases h
    | some f => cases f <;> simp [fromImage, Wrapped.isNormal, Wrapped.hasDistortion, Wrapped.pixelScale]
  · cases fromImage asdf header <;> simp [Wrapped.isNormal]

/-! ## File handles -/

/-- Files opened so far (numbered in order) and which of them are still open; the cached handle. -/
structure Handles where
  opened : Nat
  open_ : List Nat
  cached : Option Nat

/-- What a program does with a store. -/
inductive Use
  | data
  | close

/-- Access to `PixelStore.data` (storage.py:287-292): the handle returned. -/
def pixData (h : Handles) : Nat × Handles :=
  match h.cached with
  | some k => (k, h)
  | none => (h.opened, { opened := h.opened + 1, open_ := h.open_ ++ [h.opened], cached := some h.opened })

/-- `PixelStore.close` (storage.py:294-299). -/
def pixClose (h : Handles) : Handles :=
  match h.cached with
  | some k => { h with open_ := h.open_.filter (· ≠ k), cached := none }
  | none => h

/-- A program using a pixel store: the handles it gets, and the final state. -/
def runPix : List Use → Handles → List Nat × Handles
  | [], h => ([], h)
  | .data :: us, h => ((pixData h).1 :: (runPix us (pixData h).2).1, (runPix us (pixData h).2).2)
  | .close :: us, h => runPix us (pixClose h)

/-- Access to `PSFStore.data` (storage.py:577-578): a new file object each time, never closed by the store. -/
def psfData (h : Handles) : Nat × Handles :=
  (h.opened, { h with opened := h.opened + 1, open_ := h.open_ ++ [h.opened] })

/-- A program reading a PSF store `n` times. -/
def runPsf : Nat → Handles → Handles
  | 0, h => h
  | n + 1, h => runPsf n (psfData h).2

/-- Nothing opened yet. -/
def fresh : Handles := { opened := 0, open_ := [], cached := none }

/-- The invariant: exactly the cached handle is open, and it is an old one. -/
def Tidy (h : Handles) : Prop := h.open_ = h.cached.toList ∧ ∀ k ∈ h.cached, k < h.opened

lemma tidy_data {h : Handles} (ht : Tidy h) :
    Tidy (pixData h).2 ∧ (pixData h).2.cached = some (pixData h).1 ∧ h.opened ≤ (pixData h).2.opened := by
  obtain ⟨o, l, c⟩ := h
  cases c with
  | some k => exact ⟨ht, rfl, le_refl _⟩
  | none =>
    simp only [Tidy, Option.toList_none] at ht
    simp [pixData, Tidy, ht.1]

lemma tidy_close {h : Handles} (ht : Tidy h) :
    Tidy (pixClose h) ∧ (pixClose h).cached = none ∧ (pixClose h).opened = h.opened := by
  obtain ⟨o, l, c⟩ := h
  cases c with
  | some k =>
    simp only [Tidy, Option.toList_some] at ht
    simp [pixClose, Tidy, ht.1]
  | none => exact ⟨ht, rfl, rfl⟩

lemma tidy_run : ∀ (us : List Use) (h : Handles), Tidy h → Tidy (runPix us h).2
  | [], _, ht => ht
  | .data :: us, _, ht => tidy_run us _ (tidy_data ht).1
  | .close :: us, _, ht => tidy_run us _ (tidy_close ht).1

/-- C128, pixel stores: however a program mixes reading and closing, at most one file is open at any time; after
closing none is; two reads without a close between them use the same file object, and a read after a close a new
one that is open; the file is then opened exactly once. -/
theorem C128_handles (us : List Use) :
    (runPix us fresh).2.open_.length ≤ 1 ∧
    (runPix (us ++ [.close]) fresh).2.open_ = [] ∧
    (runPix (us ++ [.close, .close]) fresh).2 = (runPix (us ++ [.close]) fresh).2 ∧
    (∃ (a : List Nat) (k : Nat), (runPix (us ++ [.data, .data]) fresh).1 = a ++ [k, k] ∧
      (runPix (us ++ [.data, .data]) fresh).2.open_ = [k]) ∧
    ∃ (a : List Nat) (k m : Nat), (runPix (us ++ [.data, .close, .data]) fresh).1 = a ++ [k, m] ∧ k < m ∧
      (runPix (us ++ [.data, .close, .data]) fresh).2.open_ = [m] ∧
      (runPix (us ++ [.data, .close, .data]) fresh).2.opened = (runPix (us ++ [.data]) fresh).2.opened + 1 := by
  have happ : ∀ (us vs : List Use) (h : Handles), runPix (us ++ vs) h =
      ((runPix us h).1 ++ (runPix vs (runPix us h).2).1, (runPix vs (runPix us h).2).2) := by
    intro us vs
    induction us with
    | nil => intro h; rfl
    | cons u us ih => intro h; cases u <;> simp [runPix, ih]
  have ht : Tidy (runPix us fresh).2 := tidy_run us fresh (by simp [Tidy, fresh])
  rcases hr : runPix us fresh with ⟨l, h⟩
  rw [hr] at ht
  simp only [happ, hr]
  refine ⟨?_, ?_, ?_, ?_, ?_⟩
  · rw [ht.1]
    cases h.cached <;> simp
  · obtain ⟨t, hc, -⟩ := tidy_close ht
    simp only [runPix]
    rw [t.1, hc]
    rfl
  · obtain ⟨t, hc, -⟩ := tidy_close ht
    simp only [runPix]
    rw [pixClose.eq_def (pixClose h), hc]
  · obtain ⟨t, hc, -⟩ := tidy_data ht
    have e : pixData (pixData h).2 = ((pixData h).1, (pixData h).2) := by
      rw [pixData.eq_def (pixData h).2, hc]
    refine ⟨l, (pixData h).1, ?_, ?_⟩
    · simp only [runPix, e]
    · simp only [runPix, e]
      rw [t.1, hc]
      rfl
  · obtain ⟨t, hc, -⟩ := tidy_data ht
    obtain ⟨t2, hc2, ho2⟩ := tidy_close t
    obtain ⟨t3, hc3, -⟩ := tidy_data t2
    have e : (pixData (pixClose (pixData h).2)).1 = (pixClose (pixData h).2).opened := by
      rw [pixData.eq_def, hc2]
    refine ⟨l, (pixData h).1, (pixData (pixClose (pixData h).2)).1, by simp only [runPix], ?_, ?_, ?_⟩
    · rw [e, ho2]
      exact t.2 _ hc
    · simp only [runPix]
      rw [t3.1, hc3]
      rfl
    · simp only [runPix]
      rw [pixData.eq_def (pixClose _), hc2]
      simp only [ho2]

/-- C128, the way the code fails: a PSF store opens its file again at every access and closes none, so the number
of open files grows with the number of lookups. -/
theorem C128_psf_refuted (n : Nat) : (runPsf n fresh).open_ = List.range n := by
  have key : ∀ (n : Nat) (h : Handles), (runPsf n h).open_ = h.open_ ++ (List.range n).map (h.opened + ·) ∧
      (runPsf n h).opened = h.opened + n := by
    intro n
    induction n with
    | zero => intro h; simp [runPsf]
    | succ n ih =>
      intro h
      obtain ⟨h1, h2⟩ := ih (psfData h).2
      constructor
      · rw [runPsf, h1, List.range_succ_eq_map]
        simp only [psfData, List.append_assoc, List.map_cons, List.map_map, List.singleton_append, add_zero]
        congr 2
        apply List.map_congr_left
        intro k _
        simp only [Function.comp_apply]
        omega
      · rw [runPsf, h2]
        simp only [psfData]
        omega
  rw [(key n fresh).1]
  simp [fresh]

/-- The hypotheses can be met: a shift of one pixel is seen by the identity WCS. -/
example : (Wrapped.astropy ⟨false, id, id, ⟨1, 0, 0, 1⟩⟩).pix2world [5, 6] [("origin", 1)] ≠
    astropyPix2world ⟨false, id, id, ⟨1, 0, 0, 1⟩⟩ [5, 6, 1] :=
  (C127_origin_refuted _ 5 6 1 []).2.2.2 (fun _ => rfl) (by norm_num)

example : (runPix [.data, .data, .close, .data] fresh).1 = [0, 0, 1] := by decide

end Forcepho.Wcs
