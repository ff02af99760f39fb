import Verif.Device.Cpu
import Verif.Patch.Props
import Mathlib.Data.List.Induction

/-!
# C114: residual images after any number of evaluations, and rendering a catalog

Model of `evaluate_proposal` of the proposers (forcepho/proposal.py:96-151, 180-226), of
`FastPosterior.residuals` (forcepho/model.py:389-405), of the flag `return_residual` and of
`DevicePatchMixin.render` (forcepho/patches/device_patch.py:240-254), on top of the device model.
-/

set_option autoImplicit false
set_option linter.unusedSectionVars false

namespace Forcepho.Device

/-- Exceptions of this layer. -/
inductive Fail
  | dev (e : Err)
  | valueError   -- unpacking a tuple of the wrong length
  | typeError    -- an operand of the wrong type
  deriving DecidableEq, Repr

/-- Residuals as handed to the caller: one list per exposure, or the flat array. -/
inductive Images
  | perExposure (l : List (List ℝ))
  | flat (l : List ℝ)

/-- Retrieving and unpacking the residual (proposal.py:144-147, 218-221); `sizes` is `exposure_N`. -/
def unpackImages (sizes : List Nat) (unpack : Bool) (r : Arr) : Images :=
  let l := (List.range sizes.sum).map r
  if unpack then .perExposure (Patch.unpackResiduals l sizes) else .flat l

/-- `-residuals` (device_patch.py:253): arrays can be negated, lists can not. -/
def negImages : Images → Except Fail Images
  | .flat l => .ok (.flat (l.map fun x => -x))
  | .perExposure _ => .error .typeError

section
variable {S : Type} (ops : Ops S)

/-! ## GPU -/

/-- `GPUProposer.evaluate_proposal` (proposal.py:96-151): the residuals, if the patch asks for them. -/
def Gpu.evalProposal (sizes : List Nat) (unpack : Bool) (prop : Arr) (g : Gpu) :
    Except Fail (Option Images) × Gpu :=
  match g.evaluate ops prop with
  | (some e, g1) => (.error (.dev e), g1)
  | (none, g1) =>
    if g1.returnResidual then
      match g1.retrieve Name.residual with
      | .error e => (.error (.dev e), g1)
      | .ok r => (.ok (some (unpackImages sizes unpack r)), g1)
    else (.ok none, g1)

/-- `FastPosterior.residuals` (model.py:389-405). -/
def Gpu.residuals (sizes : List Nat) (unpack : Bool) (prop : Arr) (g : Gpu) : Except Fail Images × Gpu :=
  match Gpu.evalProposal ops sizes unpack prop { g with returnResidual := true } with
  | (.error e, g1) => (.error e, g1)
  | (.ok none, g1) => (.error .valueError, g1)
  | (.ok (some r), g1) => (.ok r, { g1 with returnResidual := g.returnResidual })

/-- `prepare_model` (device_patch.py:57-60): the fixed sources are subtracted and residuals switched off. -/
def Gpu.prepare (junk : Arr) (m : Nat) (fixed active big : Option (List S)) (g : Gpu) :
    Except Err (List S) × Gpu :=
  match g.subtractFixed ops junk m false fixed active big with
  | (.error e, g1) => (.error e, g1)
  | (.ok sc, g1) => (.ok sc, { g1 with returnResidual := false })

/-- `render` (device_patch.py:240-254). -/
def Gpu.render (sizes : List Nat) (sc : List S) (g : Gpu) : Except Fail Images × Gpu :=
  match g.packMeta ops sc with
  | (some e, g1) => (.error (.dev e), g1)
  | (none, g1) =>
    match Gpu.evalProposal ops sizes true (ops.proposal sc) { g1 with returnResidual := true } with
    | (.error e, g2) => (.error e, g2)
    | (.ok none, g2) => (.error .valueError, { g2 with returnResidual := true })
    | (.ok (some r), g2) => (negImages r, { g2 with returnResidual := true })

/-! ## CPU: the flag is kept beside the device -/

/-- A CPU patch and `return_residual`. -/
structure CpuPatch where
  cpu : Cpu
  returnResidual : Bool

/-- `CPUProposer.evaluate_proposal` (proposal.py:180-226). -/
def CpuPatch.evalProposal (sizes : List Nat) (unpack : Bool) (prop : Arr) (c : CpuPatch) :
    Except Fail (Option Images) × CpuPatch :=
  match c.cpu.evaluate ops prop with
  | (some e, c1) => (.error (.dev e), { c with cpu := c1 })
  | (none, c1) =>
    if c.returnResidual then
      match c1.retrieve Name.residual with
      | .error e => (.error (.dev e), { c with cpu := c1 })
      | .ok r => (.ok (some (unpackImages sizes unpack r)), { c with cpu := c1 })
    else (.ok none, { c with cpu := c1 })

/-- `FastPosterior.residuals` (model.py:389-405). -/
def CpuPatch.residuals (sizes : List Nat) (unpack : Bool) (prop : Arr) (c : CpuPatch) :
    Except Fail Images × CpuPatch :=
  match CpuPatch.evalProposal ops sizes unpack prop { c with returnResidual := true } with
  | (.error e, c1) => (.error e, c1)
  | (.ok none, c1) => (.error .valueError, c1)
  | (.ok (some r), c1) => (.ok r, { c1 with returnResidual := c.returnResidual })

/-- `prepare_model` (device_patch.py:57-60). -/
def CpuPatch.prepare (m : Nat) (fixed active big : Option (List S)) (c : CpuPatch) :
    Except Err (List S) × CpuPatch :=
  match c.cpu.subtractFixed ops m false fixed active big with
  | (.error e, c1) => (.error e, { cpu := c1, returnResidual := true })
  | (.ok sc, c1) => (.ok sc, { cpu := c1, returnResidual := false })

/-- `render` (device_patch.py:240-254). -/
def CpuPatch.render (sizes : List Nat) (sc : List S) (c : CpuPatch) : Except Fail Images × CpuPatch :=
  match c.cpu.packMeta ops sc with
  | (some e, c1) => (.error (.dev e), { c with cpu := c1 })
  | (none, c1) =>
    match CpuPatch.evalProposal ops sizes true (ops.proposal sc) { cpu := c1, returnResidual := true } with
    | (.error e, c2) => (.error e, c2)
    | (.ok none, c2) => (.error .valueError, { c2 with returnResidual := true })
    | (.ok (some r), c2) => (negImages r, { c2 with returnResidual := true })

/-! ## Sequences of calls -/

/-- A call on the posterior: the likelihood (model.py:319) or the residuals, at a proposal. -/
inductive Call
  | evaluate (prop : Arr)
  | residuals (unpack : Bool) (prop : Arr)

/-- One call on a GPU. -/
def Gpu.call (sizes : List Nat) (g : Gpu) : Call → Except Fail (Option Images) × Gpu
  | .evaluate p => Gpu.evalProposal ops sizes true p g
  | .residuals u p =>
    match Gpu.residuals ops sizes u p g with
    | (.error e, g1) => (.error e, g1)
    | (.ok r, g1) => (.ok (some r), g1)

/-- One call on a CPU. -/
def CpuPatch.call (sizes : List Nat) (c : CpuPatch) : Call → Except Fail (Option Images) × CpuPatch
  | .evaluate p => CpuPatch.evalProposal ops sizes true p c
  | .residuals u p =>
    match CpuPatch.residuals ops sizes u p c with
    | (.error e, c1) => (.error e, c1)
    | (.ok r, c1) => (.ok (some r), c1)

/-- All answers of a sequence of calls, and the final state. -/
def runCalls {A B : Type} (f : A → Call → B × A) : A → List Call → List B × A
  | a, [] => ([], a)
  | a, x :: xs =>
    let r := f a x
    let rest := runCalls f r.2 xs
    (r.1 :: rest.1, rest.2)

/-! ## Specification -/

/-- The image that belongs to a proposal for the scene `sc`. -/
def imageAt (pix : Name → Arr) (sc : List S) (prop : Arr) : Arr :=
  ops.model (fun n => if n = Name.data ∨ n = Name.residual then fun _ => 0 else wanted ops pix sc n) prop

/-- Specification: the pixels of each exposure of a flat array, exposure `e` starting after the earlier ones. -/
def pixelsOf (sizes : List Nat) (x : Arr) : List (List ℝ) :=
  (List.range sizes.length).map fun e =>
    (List.range (sizes.getD e 0)).map fun i => x ((sizes.take e).sum + i)

/-- Specification: the answer to a call when the data are `d`. -/
def answer (pix : Name → Arr) (sizes : List Nat) (sc : List S) (d : Arr) : Call → Option Images
  | .evaluate _ => none
  | .residuals true p => some (.perExposure (pixelsOf sizes fun i => d i - imageAt ops pix sc p i))
  | .residuals false p => some (.flat ((List.range sizes.sum).map fun i => d i - imageAt ops pix sc p i))

lemma pixelsOf_flatten (x : Arr) : ∀ (sizes : List Nat),
    (pixelsOf sizes x).flatten = (List.range sizes.sum).map x ∧ (pixelsOf sizes x).map List.length = sizes := by
  intro sizes
  induction sizes generalizing x with
  | nil => simp [pixelsOf]
  | cons n rest ih =>
    have hcons : pixelsOf (n :: rest) x = ((List.range n).map x) :: pixelsOf rest fun i => x (n + i) := by
      unfold pixelsOf
      rw [List.length_cons, List.range_succ_eq_map, List.map_cons, List.map_map]
      refine congrArg₂ List.cons ?_ ?_
      · simp
      · apply List.map_congr_left
        intro e _
        simp only [Function.comp_apply, Nat.succ_eq_add_one, List.take_succ_cons, List.sum_cons]
        apply List.map_congr_left
        intro i _
        rw [Nat.add_assoc]
    obtain ⟨h1, h2⟩ := ih fun i => x (n + i)
    rw [hcons]
    constructor
    · rw [List.flatten_cons, h1, List.sum_cons, List.range_add, List.map_append, List.map_map]
      rfl
    · rw [List.map_cons, h2]
      simp

lemma unpack_pixelsOf (sizes : List Nat) (hs : sizes ≠ []) (x : Arr) :
    Patch.unpackResiduals ((List.range sizes.sum).map x) sizes = pixelsOf sizes x := by
  obtain ⟨h1, h2⟩ := pixelsOf_flatten x sizes
  have h3 : pixelsOf sizes x ≠ [] := by
    intro h
    rw [h] at h2
    exact hs (by simpa using h2.symm)
  have := Patch.C42_residuals (K := ℝ) (pixelsOf sizes x) h3
  rw [h1, h2] at this
  exact this

lemma ready_proposal (pr : List S → Arr) (pix : Name → Arr) (sc : List S) (d : Arr) (g : Gpu)
    (h : Ready ops pix sc d g) : Ready { ops with proposal := pr } pix sc d g :=
  ⟨h.wf, h.hptrs, h.attrPix, h.attrMeta⟩

lemma cready_proposal (pr : List S → Arr) (pix : Name → Arr) (sc : List S) (d : Arr) (c : Cpu)
    (h : CReady ops pix sc d c) : CReady { ops with proposal := pr } pix sc d c :=
  ⟨h.dist, h.data, h.res, h.other, h.ptrs, h.cnt⟩

lemma evaluate_ready_at (pix : Name → Arr) (sc : List S) (d : Arr) (prop : Arr) (g : Gpu)
    (h : Ready ops pix sc d g) :
    ∃ g', g.evaluate ops prop = (none, g') ∧ Ready ops pix sc d g' ∧ g'.returnResidual = g.returnResidual ∧
      g'.retrieve Name.residual = .ok (d - imageAt ops pix sc prop) := by
  obtain ⟨g', e1, e2, -, p, r, e4, e5, e6⟩ := evaluate_ready { ops with proposal := fun _ => prop } pix sc d g
    (ready_proposal ops _ pix sc d g h)
  have e1' : g.evaluate ops prop = (none, g') := e1
  refine ⟨g', e1', ready_proposal { ops with proposal := fun _ => prop } ops.proposal pix sc d g' e2, ?_, ?_⟩
  · have hflag : (g.evaluate ops prop).2.returnResidual = g.returnResidual := by
      unfold Gpu.evaluate
      split
      · rfl
      · split
        · rfl
        · split
          · rfl
          · split
            · rfl
            · dsimp only
              split
              · rfl
              · split <;> rfl
    rw [e1'] at hflag
    exact hflag
  · unfold Gpu.retrieve
    rw [e4]; simp only
    rw [e5]; simp only
    rw [e6]; rfl

lemma evaluate_cready_at (pix : Name → Arr) (sc : List S) (d : Arr) (prop : Arr) (c : Cpu)
    (h : CReady ops pix sc d c) :
    ∃ c', c.evaluate ops prop = (none, c') ∧ CReady ops pix sc d c' ∧
      c'.retrieve Name.residual = .ok (d - imageAt ops pix sc prop) := by
  obtain ⟨c', e1, e2, -, r, e4, e5⟩ := evaluate_cready { ops with proposal := fun _ => prop } pix sc d c
    (cready_proposal ops _ pix sc d c h)
  refine ⟨c', e1, cready_proposal { ops with proposal := fun _ => prop } ops.proposal pix sc d c' e2, ?_⟩
  unfold Cpu.retrieve
  rw [e4]
  exact congrArg _ e5

lemma ready_flag (pix : Name → Arr) (sc : List S) (d : Arr) (g : Gpu) (b : Bool) (h : Ready ops pix sc d g) :
    Ready ops pix sc d { g with returnResidual := b } :=
  ⟨wf_flags g b g.dirty h.wf, h.hptrs, h.attrPix, h.attrMeta⟩

lemma unpackImages_answer (pix : Name → Arr) (sizes : List Nat) (hs : sizes ≠ []) (sc : List S) (d : Arr)
    (u : Bool) (p : Arr) :
    some (unpackImages sizes u (d - imageAt ops pix sc p)) = answer ops pix sizes sc d (.residuals u p) := by
  unfold unpackImages
  cases u with
  | true =>
    simp only [if_true, answer]
    rw [unpack_pixelsOf sizes hs]
    rfl
  | false => rfl

lemma gpu_call (pix : Name → Arr) (sizes : List Nat) (hs : sizes ≠ []) (sc : List S) (d : Arr) (g : Gpu)
    (h : Ready ops pix sc d g) (hf : g.returnResidual = false) (x : Call) :
    ∃ g', Gpu.call ops sizes g x = (.ok (answer ops pix sizes sc d x), g') ∧ Ready ops pix sc d g' ∧
      g'.returnResidual = false := by
  cases x with
  | evaluate p =>
    obtain ⟨g', e1, e2, e3, e4⟩ := evaluate_ready_at ops pix sc d p g h
    refine ⟨g', ?_, e2, e3.trans hf⟩
    simp only [Gpu.call, Gpu.evalProposal, e1]
    rw [if_neg (by simp [e3, hf])]
    rfl
  | residuals u p =>
    obtain ⟨g', e1, e2, e3, e4⟩ := evaluate_ready_at ops pix sc d p { g with returnResidual := true }
      (ready_flag ops pix sc d g true h)
    refine ⟨{ g' with returnResidual := g.returnResidual }, ?_, ready_flag ops pix sc d g' _ e2, hf⟩
    simp only [Gpu.call, Gpu.residuals, Gpu.evalProposal, e1]
    rw [if_pos e3]
    simp only [e4]
    rw [unpackImages_answer ops pix sizes hs]

lemma cpu_call (pix : Name → Arr) (sizes : List Nat) (hs : sizes ≠ []) (sc : List S) (d : Arr) (c : CpuPatch)
    (h : CReady ops pix sc d c.cpu) (hf : c.returnResidual = false) (x : Call) :
    ∃ c', CpuPatch.call ops sizes c x = (.ok (answer ops pix sizes sc d x), c') ∧ CReady ops pix sc d c'.cpu ∧
      c'.returnResidual = false := by
  cases x with
  | evaluate p =>
    obtain ⟨c', e1, e2, e3⟩ := evaluate_cready_at ops pix sc d p c.cpu h
    refine ⟨{ c with cpu := c' }, ?_, e2, hf⟩
    simp only [CpuPatch.call, CpuPatch.evalProposal, e1]
    rw [if_neg (by simp [hf])]
    rfl
  | residuals u p =>
    obtain ⟨c', e1, e2, e3⟩ := evaluate_cready_at ops pix sc d p c.cpu h
    refine ⟨{ cpu := c', returnResidual := c.returnResidual }, ?_, e2, hf⟩
    simp only [CpuPatch.call, CpuPatch.residuals, CpuPatch.evalProposal, e1]
    rw [if_pos trivial]
    simp only [e3]
    rw [unpackImages_answer ops pix sizes hs]

/-- C114 on a GPU. Prepare a packed patch with any big and fixed catalogs. Then every sequence of likelihood
evaluations and requests for residuals, at any proposals, succeeds; each request returns, for every exposure and
pixel, the data less the images of the blocks of big and fixed sources less the image of the requested proposal,
whatever was evaluated before; the data stay the same. -/
theorem C114_gpu (pix : Name → Arr) (junk : Arr) (m : Nat) (hm : 0 < m) (sizes : List Nat) (hs : sizes ≠ [])
    (fixed big : Option (List S)) (active : List S) (hf : fixed ≠ some []) (hb : big ≠ some [])
    (ha : active ≠ []) (g : Gpu) (h : Packed pix g) :
    ∃ (g' : Gpu) (bs : List (List S)), g.prepare ops junk m fixed (some active) big = (.ok active, g') ∧
      bs.flatten = big.getD [] ++ fixed.getD [] ∧
      ∀ calls : List Call,
        (runCalls (Gpu.call ops sizes) g' calls).1 = calls.map (fun x =>
          (.ok (answer ops pix sizes active (pix Name.data - (bs.map (image ops pix)).sum) x) :
            Except Fail (Option Images))) ∧
        (runCalls (Gpu.call ops sizes) g' calls).2.retrieve Name.data =
          .ok (pix Name.data - (bs.map (image ops pix)).sum) ∧
        (runCalls (Gpu.call ops sizes) g' calls).2.returnResidual = false := by
  obtain ⟨g1, bs, h1, h2, -, l2⟩ := gpu_subtract ops pix junk m hm false fixed big active hf hb ha g h
  refine ⟨{ g1 with returnResidual := false }, bs, ?_, h2, ?_⟩
  · unfold Gpu.prepare
    rw [h1]
  · intro calls
    have key : ∀ (calls : List Call) (g' : Gpu),
        Ready ops pix active (pix Name.data - (bs.map (image ops pix)).sum) g' → g'.returnResidual = false →
        (runCalls (Gpu.call ops sizes) g' calls).1 = calls.map (fun x =>
          (.ok (answer ops pix sizes active (pix Name.data - (bs.map (image ops pix)).sum) x) :
            Except Fail (Option Images))) ∧
        (runCalls (Gpu.call ops sizes) g' calls).2.retrieve Name.data =
          .ok (pix Name.data - (bs.map (image ops pix)).sum) ∧
        (runCalls (Gpu.call ops sizes) g' calls).2.returnResidual = false := by
      intro calls
      induction calls with
      | nil => intro g' hr hf'; exact ⟨rfl, ready_retrieve ops pix active _ g' hr, hf'⟩
      | cons x xs ih =>
        intro g' hr hf'
        obtain ⟨g2, c1, c2, c3⟩ := gpu_call ops pix sizes hs active _ g' hr hf' x
        obtain ⟨i1, i2, i3⟩ := ih g2 c2 c3
        simp only [runCalls, c1, List.map_cons]
        exact ⟨by rw [i1], i2, i3⟩
    exact key calls _ (ready_flag ops pix active _ g1 false l2) rfl

/-- C114 on a CPU: as on the GPU. -/
theorem C114_cpu (pix : Name → Arr) (d : Arr) (m : Nat) (hm : 0 < m) (sizes : List Nat) (hs : sizes ≠ [])
    (fixed big : Option (List S)) (active : List S) (hf : fixed ≠ some []) (hb : big ≠ some [])
    (ha : active ≠ []) (c : CpuPatch) (h : CPacked pix d c.cpu) :
    ∃ (c' : CpuPatch) (bs : List (List S)), c.prepare ops m fixed (some active) big = (.ok active, c') ∧
      bs.flatten = big.getD [] ++ fixed.getD [] ∧
      ∀ calls : List Call,
        (runCalls (CpuPatch.call ops sizes) c' calls).1 = calls.map (fun x =>
          (.ok (answer ops pix sizes active (d - (bs.map (image ops pix)).sum) x) :
            Except Fail (Option Images))) ∧
        (runCalls (CpuPatch.call ops sizes) c' calls).2.cpu.retrieve Name.data =
          .ok (d - (bs.map (image ops pix)).sum) ∧
        (runCalls (CpuPatch.call ops sizes) c' calls).2.returnResidual = false := by
  obtain ⟨bs, h1, -, h3⟩ := cpu_subtract ops pix m hm false fixed big active hf hb ha
  obtain ⟨c1, q1, q2, -⟩ := h3 d c.cpu h
  refine ⟨{ cpu := c1, returnResidual := false }, bs, ?_, h1, ?_⟩
  · unfold CpuPatch.prepare
    rw [q1]
  · intro calls
    have key : ∀ (calls : List Call) (c' : CpuPatch),
        CReady ops pix active (d - (bs.map (image ops pix)).sum) c'.cpu → c'.returnResidual = false →
        (runCalls (CpuPatch.call ops sizes) c' calls).1 = calls.map (fun x =>
          (.ok (answer ops pix sizes active (d - (bs.map (image ops pix)).sum) x) :
            Except Fail (Option Images))) ∧
        (runCalls (CpuPatch.call ops sizes) c' calls).2.cpu.retrieve Name.data =
          .ok (d - (bs.map (image ops pix)).sum) ∧
        (runCalls (CpuPatch.call ops sizes) c' calls).2.returnResidual = false := by
      intro calls
      induction calls with
      | nil => intro c' hr hf'; exact ⟨rfl, cready_retrieve ops pix active _ c'.cpu hr, hf'⟩
      | cons x xs ih =>
        intro c' hr hf'
        obtain ⟨c2, e1, e2, e3⟩ := cpu_call ops pix sizes hs active _ c' hr hf' x
        obtain ⟨i1, i2, i3⟩ := ih c2 e2 e3
        simp only [runCalls, e1, List.map_cons]
        exact ⟨by rw [i1], i2, i3⟩
    exact key calls _ q2 rfl

/-! ## Rendering -/

/-- C114, after a failure: a call for residuals that raises leaves the request for residuals switched on (so later
likelihood calls return a third value), preparing a model that fails leaves the patch as the failed subtraction
did, with residuals switched on on the CPU, and rendering always leaves them switched on unless packing the
scene already failed. -/
theorem C114_failures (sizes : List Nat) (c : CpuPatch) (g : Gpu) :
    (∀ (unpack : Bool) (prop : Arr) (e : Fail) (c' : CpuPatch),
      c.residuals ops sizes unpack prop = (.error e, c') →
        c'.returnResidual = true ∧ c'.cpu = (c.cpu.evaluate ops prop).2) ∧
    (∀ (m : Nat) (fixed active big : Option (List S)) (e : Err) (c' : CpuPatch),
      c.prepare ops m fixed active big = (.error e, c') →
        c'.returnResidual = true ∧ c'.cpu = (c.cpu.subtractFixed ops m false fixed active big).2) ∧
    (∀ (junk : Arr) (m : Nat) (fixed active big : Option (List S)) (e : Err) (g' : Gpu),
      g.prepare ops junk m fixed active big = (.error e, g') →
        g.subtractFixed ops junk m false fixed active big = (.error e, g')) ∧
    (∀ sc, (c.cpu.packMeta ops sc).1 = none → (c.render ops sizes sc).2.returnResidual = true) := by
  have hev : ∀ (unpack : Bool) (prop : Arr) (d : CpuPatch),
      (d.evalProposal ops sizes unpack prop).2 = { d with cpu := (d.cpu.evaluate ops prop).2 } := by
    intro unpack prop d
    unfold CpuPatch.evalProposal
    rcases d.cpu.evaluate ops prop with ⟨_ | e, c1⟩
    · simp only
      split
      · split <;> rfl
      · rfl
    · rfl
  refine ⟨?_, ?_, ?_, ?_⟩
  · intro unpack prop e c' h
    have h2 := hev unpack prop { c with returnResidual := true }
    unfold CpuPatch.residuals at h
    rcases hq : CpuPatch.evalProposal ops sizes unpack prop { c with returnResidual := true } with ⟨_ | _ | r, c1⟩ <;>
      rw [hq] at h h2
    · simp only [Prod.mk.injEq] at h
      obtain ⟨-, rfl⟩ := h
      simp only at h2
      rw [h2]
      exact ⟨rfl, rfl⟩
    · simp only [Prod.mk.injEq] at h
      obtain ⟨-, rfl⟩ := h
      simp only at h2
      rw [h2]
      exact ⟨rfl, rfl⟩
    · simp at h
  · intro m fixed active big e c' h
    unfold CpuPatch.prepare at h
    rcases hq : c.cpu.subtractFixed ops m false fixed active big with ⟨_ | r, c1⟩ <;> rw [hq] at h
    · simp only [Prod.mk.injEq] at h
      obtain ⟨-, rfl⟩ := h
      exact ⟨rfl, rfl⟩
    · simp at h
  · intro junk m fixed active big e g' h
    unfold Gpu.prepare at h
    rcases hq : g.subtractFixed ops junk m false fixed active big with ⟨_ | r, g1⟩ <;> rw [hq] at h
    · simpa using h
    · simp at h
  · intro sc hp
    unfold CpuPatch.render
    rcases hq : c.cpu.packMeta ops sc with ⟨_ | e, c1⟩
    · simp only
      have h2 := hev true (ops.proposal sc) { cpu := c1, returnResidual := true }
      rcases hr : CpuPatch.evalProposal ops sizes true (ops.proposal sc) { cpu := c1, returnResidual := true } with
        ⟨_ | _ | r, c2⟩ <;> rw [hr] at h2 <;> simp only at h2 ⊢ <;> rw [h2]
    · rw [hq] at hp
      simp at hp

/-- C114, what rendering attempts: arrays are negated element by element, lists of arrays raise a type error. -/
theorem C114_negate (l : List ℝ) (ll : List (List ℝ)) :
    (∃ l', negImages (.flat l) = .ok (.flat l') ∧ l'.length = l.length ∧
      ∀ (i : Nat) (x : ℝ), l[i]? = some x → l'[i]? = some (0 - x)) ∧
    negImages (.perExposure ll) = .error .typeError := by
  refine ⟨⟨_, rfl, by simp, ?_⟩, rfl⟩
  intro i x hx
  simp [hx]

/-- C114 fails for `render`: it returns images in no state, on no device. -/
theorem C114_render_refuted (sizes : List Nat) (sc : List S) :
    (∀ (g : Gpu) (r : Images), (g.render ops sizes sc).1 ≠ .ok r) ∧
    ∀ (c : CpuPatch) (r : Images), (c.render ops sizes sc).1 ≠ .ok r := by
  constructor
  · intro g r
    unfold Gpu.render
    split
    · simp
    · next g1 _ =>
      unfold Gpu.evalProposal
      split <;> rename_i heq <;> split at heq <;> try (simp at heq; done)
      all_goals try simp
      split at heq
      · split at heq
        · simp at heq
        · simp only [Prod.mk.injEq, Except.ok.injEq, Option.some.injEq] at heq
          rw [← heq.1]
          simp [unpackImages, negImages]
      · simp at heq
  · intro c r
    unfold CpuPatch.render
    split
    · simp
    · next c1 _ =>
      unfold CpuPatch.evalProposal
      split <;> rename_i heq <;> split at heq <;> try (simp at heq; done)
      all_goals try simp
      split at heq
      · split at heq
        · simp at heq
        · simp only [Prod.mk.injEq, Except.ok.injEq, Option.some.injEq] at heq
          rw [← heq.1]
          simp [unpackImages, negImages]
      · simp at heq

/-- A kernel call does not look at the attributes of the host. -/
lemma evaluate_host (A : Name → Option Arr) (prop : Arr) (g : Gpu) :
    ({ g with attr := A } : Gpu).evaluate ops prop =
      ((g.evaluate ops prop).1, { (g.evaluate ops prop).2 with attr := A }) := by
  obtain ⟨attr, next, cell, ptrs, struct, rr, dirty⟩ := g
  cases struct with
  | none => rfl
  | some s =>
    simp only [Gpu.evaluate]
    by_cases h1 : (⟨attr, next, cell, ptrs, some s, rr, dirty⟩ : Gpu).Live s
    · have h1' : (⟨A, next, cell, ptrs, some s, rr, dirty⟩ : Gpu).Live s := h1
      rw [if_neg (not_not.mpr h1), if_neg (not_not.mpr h1')]
      cases (cell s).val with
      | arr x => rfl
      | struct p v =>
        simp only
        have hd : ∀ n, (⟨A, next, cell, ptrs, some s, rr, dirty⟩ : Gpu).deref p v n =
          (⟨attr, next, cell, ptrs, some s, rr, dirty⟩ : Gpu).deref p v n := fun n => rfl
        simp only [hd]
        by_cases h3 : ((names.filter (· ≠ Name.residual)).any fun n =>
          ((⟨attr, next, cell, ptrs, some s, rr, dirty⟩ : Gpu).deref p v n).isNone) = true
        · rw [if_pos h3, if_pos h3]
        · rw [if_neg h3, if_neg h3]
          cases p Name.residual with
          | none => rfl
          | some r =>
            simp only
            by_cases h2 : (⟨attr, next, cell, ptrs, some s, rr, dirty⟩ : Gpu).Live r
            · have h2' : (⟨A, next, cell, ptrs, some s, rr, dirty⟩ : Gpu).Live r := h2
              rw [if_pos h2, if_pos h2']
              rfl
            · have h2' : ¬ (⟨A, next, cell, ptrs, some s, rr, dirty⟩ : Gpu).Live r := h2
              rw [if_neg h2, if_neg h2']
    · have h1' : ¬ (⟨A, next, cell, ptrs, some s, rr, dirty⟩ : Gpu).Live s := h1
      rw [if_pos h1, if_pos h1']

/-- What `render` does on a prepared GPU patch: it fails on the type of its operand, residuals stay switched on,
and the device has used the metadata of the scene it was prepared for, not of the catalog to be rendered. -/
theorem C114_render_gpu (pix : Name → Arr) (junk : Arr) (m : Nat) (hm : 0 < m) (sizes : List Nat)
    (fixed big : Option (List S)) (active sc : List S) (hf : fixed ≠ some []) (hb : big ≠ some [])
    (ha : active ≠ []) (hsc : sc ≠ []) (g : Gpu) (h : Packed pix g) :
    ∃ (g1 g2 : Gpu) (bs : List (List S)), g.prepare ops junk m fixed (some active) big = (.ok active, g1) ∧
      bs.flatten = big.getD [] ++ fixed.getD [] ∧ g1.render ops sizes sc = (.error .typeError, g2) ∧
      g2.returnResidual = true ∧ g2.retrieve Name.residual =
        .ok (pix Name.data - (bs.map (image ops pix)).sum - imageAt ops pix active (ops.proposal sc)) := by
  obtain ⟨g0, bs, h1, h2, -, l2⟩ := gpu_subtract ops pix junk m hm false fixed big active hf hb ha g h
  set A : Name → Option Arr := fun n => if n ∈ metaNames then some (ops.packed sc n) else g0.attr n with hA
  obtain ⟨g', e1, e2, e3, e4⟩ := evaluate_ready_at ops pix active _ (ops.proposal sc)
    { g0 with returnResidual := true } (ready_flag ops pix active _ g0 true l2)
  refine ⟨{ g0 with returnResidual := false }, { g' with attr := A, returnResidual := true }, bs, ?_, h2, ?_,
    rfl, e4⟩
  · unfold Gpu.prepare
    rw [h1]
  · have hev := evaluate_host ops A (ops.proposal sc) { g0 with returnResidual := true }
    rw [e1] at hev
    simp only at hev
    have hpack : Gpu.packMeta ops sc { g0 with returnResidual := false } =
        (none, { g0 with returnResidual := false, attr := A }) := by
      unfold Gpu.packMeta
      rw [if_neg hsc]
    have hret : ({ g' with attr := A } : Gpu).retrieve Name.residual = g'.retrieve Name.residual := rfl
    unfold Gpu.render
    rw [hpack]
    simp only [Gpu.evalProposal, hev]
    rw [if_pos e3, hret, e4]
    rfl

/-- On a prepared CPU patch `render` makes the kernel follow pointers to metadata that have been replaced. -/
theorem C114_render_cpu (pix : Name → Arr) (d : Arr) (m : Nat) (hm : 0 < m) (sizes : List Nat)
    (fixed big : Option (List S)) (active sc : List S) (hf : fixed ≠ some []) (hb : big ≠ some [])
    (ha : active ≠ []) (hsc : sc ≠ []) (c : CpuPatch) (h : CPacked pix d c.cpu) :
    ∃ c1 c2 : CpuPatch, c.prepare ops m fixed (some active) big = (.ok active, c1) ∧
      c1.render ops sizes sc = (.error (.dev .invalidAccess), c2) ∧ c2.returnResidual = true := by
  obtain ⟨bs, h1, -, h3⟩ := cpu_subtract ops pix m hm false fixed big active hf hb ha
  obtain ⟨c1, q1, q2, -⟩ := h3 d c.cpu h
  obtain ⟨i1, i2, i3, i4, i5, i6, i7, i8⟩ := setAttrs_facts (fun n => ops.packed sc n) metaNames
    metaNames_nodup c1 q2.dist
  set c2 := metaNames.foldl (fun c n => c.setAttr n (ops.packed sc n)) c1 with hc2
  obtain ⟨p, hp, hs, hpa⟩ := q2.ptrs
  obtain ⟨a, haa, -⟩ := q2.other Name.D (by decide) (by decide)
  have hpD : p Name.D = some a := by rw [hpa _ rfl]; exact haa
  have hnew : ∀ (L : List Name) (c : Cpu) (n : Name) (b : Nat), n ∈ L →
      (L.foldl (fun c n => c.setAttr n (ops.packed sc n)) c).attr n = some b → c.next ≤ b := by
    intro L
    induction L using List.reverseRecOn with
    | nil => intro c n b hn; simp at hn
    | append_singleton L x ih =>
      intro c n b hn hb
      rw [List.foldl_append, List.foldl_cons, List.foldl_nil] at hb
      have hmono : ∀ (L : List Name) (c : Cpu),
          c.next ≤ (L.foldl (fun c n => c.setAttr n (ops.packed sc n)) c).next := by
        intro L
        induction L with
        | nil => intro c; exact le_refl _
        | cons y L ih2 =>
          intro c
          rw [List.foldl_cons]
          have h1 := ih2 (c.setAttr y (ops.packed sc y))
          have h2 : (c.setAttr y (ops.packed sc y)).next = c.next + 1 := rfl
          omega
      by_cases hx : n = x
      · subst hx
        simp only [Cpu.setAttr, Function.update_self, Option.some.injEq] at hb
        have := hmono L c
        exact this.trans_eq hb
      · simp only [Cpu.setAttr] at hb
        rw [Function.update_of_ne hx] at hb
        refine ih c n b ?_ hb
        simp only [List.mem_append, List.mem_singleton] at hn
        exact hn.resolve_right hx
  have hdead : c2.live a = false := by
    unfold Cpu.live
    rw [List.any_eq_false]
    intro n _ hn
    have hn' : c2.attr n = some a := by simpa using hn
    have hlt := q2.dist.lt _ _ haa
    by_cases hm' : n ∈ metaNames
    · have := hnew metaNames c1 n a hm' hn'
      omega
    · rw [i2 n hm'] at hn'
      have := q2.dist.inj _ _ _ hn' haa
      exact hm' (this ▸ (by decide))
  have hev : c2.evaluate ops (ops.proposal sc) = (some .invalidAccess, c2) := by
    unfold Cpu.evaluate
    rw [i6, hs]
    simp only
    rw [if_pos]
    rw [List.any_eq_true]
    refine ⟨Name.D, by decide, ?_⟩
    rw [hpD]
    simp [hdead]
  refine ⟨{ cpu := c1, returnResidual := false }, { cpu := c2, returnResidual := true }, ?_, ?_, rfl⟩
  · unfold CpuPatch.prepare
    rw [q1]
  · have hpack : c1.packMeta ops sc = (none, c2) := by
      unfold Cpu.packMeta
      rw [if_neg hsc]
    unfold CpuPatch.render
    simp only [hpack, CpuPatch.evalProposal, hev]

end

/-- The hypotheses hold for the concrete GPU patch, with data 10 everywhere, fixed sources 1, 2, 3 and an active
source 5 (two exposures of one and two pixels): after an evaluation at 7, residuals at proposal 2 are
10 - 6 - 2. -/
example : ∃ g', exGpu.prepare exOps (fun _ => 0) 2 (some [1, 2, 3]) (some [5]) none = (.ok [5], g') ∧
    (runCalls (Gpu.call exOps [1, 2]) g' [.evaluate fun _ => 7, .residuals true fun _ => 2]).1 =
      [.ok none, .ok (some (.perExposure [[2], [2, 2]]))] := by
  obtain ⟨g', bs, h1, h2, h3⟩ := C114_gpu exOps exPix (fun _ => 0) 2 (by norm_num) [1, 2] (by simp)
    (some [1, 2, 3]) none [5] (by simp) (by simp) (by simp) exGpu exGpu_packed
  refine ⟨g', h1, ?_⟩
  have h4 := (h3 [.evaluate fun _ => 7, .residuals true fun _ => 2]).1
  rw [h4, C47_blocks_add exOps exPix (by funext i; simp [ex_image]) (by
    intro a b
    funext i
    simp [ex_image]) bs, h2]
  have hi : ∀ p : Arr, imageAt exOps exPix [5] p = fun _ => p 0 := fun p => rfl
  simp [answer, pixelsOf, hi, ex_image, exPix, List.range_succ]
  norm_num

end Forcepho.Device
