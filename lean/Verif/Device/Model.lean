import Mathlib.Algebra.BigOperators.Group.List.Basic
import Mathlib.Algebra.Group.Pi.Basic
import Mathlib.Data.Real.Basic

/-!
# Patches on a device: packing, sending, swapping, subtracting fixed sources

Models `forcepho/patches/device_patch.py` (`DevicePatchMixin.subtract_fixed`, `GPUPatchMixin`,
`CPUPatchMixin`), the layout of `forcepho/patches/patch.py:Patch`, and the effect of a kernel call
on the residual buffer.

Simplifications.
* An array is a function from the flat index to a number (`Arr`); lengths are not tracked here, the
  packing model (`Verif.Patch`) does that.  Scalars of the structure are constant arrays.
* What a kernel call computes from everything except the data is a parameter `Ops.model`: the image
  of a scene is a function of the arrays the structure points to (data and residual excluded) and of
  the proposal.  That the kernel writes *data minus image* is the content of the kernel model
  (`Verif.Kernel`).
* A scene is the list of its catalog rows.
* PyCUDA's `DeviceAllocation` releases its memory when the Python object is destroyed
  (PyCUDA documentation of `DeviceAllocation`).  Explicit `free()` and this reclamation are kept
  apart in the ledger: `frees` counts explicit frees, `reclaimed` the destructor's.
-/

set_option autoImplicit false

namespace Forcepho.Device

/-- Contents of an array. -/
abbrev Arr := Nat → ℝ

/-- Fields of the patch structure `pdt` (patch.py:44-72). -/
inductive Name
  | data | ierr | xpix | ypix | residual
  | exposure_start | exposure_N | band_start | band_N
  | n_sources | n_radii
  | rad2 | D | crpix | crval | CW | G | n_psf_per_source | psfgauss | psfgauss_start
  deriving DecidableEq, Repr

open Name

/-- The field names in order (patch.py:44-72). -/
def names : List Name :=
  [data, ierr, xpix, ypix, residual, exposure_start, exposure_N, band_start, band_N,
   n_sources, n_radii, rad2, D, crpix, crval, CW, G, n_psf_per_source, psfgauss, psfgauss_start]

/-- `arr_dt == self.ptr_dtype`: every field except the two counts is a pointer (patch.py:44-72). -/
def isPtr : Name → Bool
  | n_sources => false
  | n_radii => false
  | _ => true

/-- `meta_names` (patch.py:75-77). -/
def metaNames : List Name :=
  [n_sources, n_radii, rad2, D, crpix, crval, CW, G, n_psf_per_source, psfgauss, psfgauss_start]

/-- Exceptions. -/
inductive Err
  | attributeError | assertionError | indexError | keyError | zeroDivision
  | doubleFree      -- PyCUDA `LogicError`: `free()` on an allocation already freed
  | invalidAccess   -- the kernel or a copy touches memory that is not allocated
  deriving DecidableEq, Repr

/-- What the host and the kernel compute from a scene. -/
structure Ops (S : Type) where
  /-- the metadata arrays and counts packed for a scene by `pack_meta` (patch.py:242-270) -/
  packed : List S → Name → Arr
  /-- `Scene.get_proposal` -/
  proposal : List S → Arr
  /-- the model image the kernel forms from the arrays it can reach and the proposal -/
  model : (Name → Arr) → Arr → Arr

/-! ## Blocks -/

/-- `np.arange(m, n, m)` for `0 < m` (device_patch.py:146, 150): `m, 2m, …` below `n`. -/
def arange (m n : Nat) : List Nat :=
  (List.range ((n - 1) / m)).map fun k => (k + 1) * m

/-- `np.array_split(cat, inds)`: the slices between consecutive split points, the first starting at
`0` and the last ending at the end. -/
def arraySplitFrom {α : Type} (l : List α) : Nat → List Nat → List (List α)
  | st, [] => [l.drop st]
  | st, e :: rest => (l.take e).drop st :: arraySplitFrom l e rest

/-- The blocks of one catalog (device_patch.py:146-147, 150-151).  `np.arange` with a zero step
divides by zero. -/
def blocks {α : Type} (m : Nat) (cat : List α) : Except Err (List (List α)) :=
  if m = 0 then .error .zeroDivision
  else .ok (arraySplitFrom cat 0 (arange m cat.length))

/-- No catalog, no blocks (device_patch.py:146, 150). -/
def optBlocks {α : Type} (m : Nat) : Option (List α) → Except Err (List (List α))
  | none => .ok []
  | some c => blocks m c

/-- The scenes to evaluate, in order (device_patch.py:145-158). -/
def scenes {S : Type} (m : Nat) (swapLocal : Bool) (fixed active big : Option (List S)) :
    Except Err (List (List S)) :=
  match optBlocks m big with
  | .error e => .error e
  | .ok bs =>
    match optBlocks m fixed with
    | .error e => .error e
    | .ok fs =>
      match active with
      | some a => .ok (bs ++ fs ++ [a])
      | none =>
        if swapLocal then
          match (bs ++ fs).getLast? with
          | none => .error .indexError
          | some last => .ok (bs ++ fs ++ [last])
        else .error .assertionError

/-! ## Device memory -/

/-- Contents of a device buffer: an array, or a patch structure with its pointers and values. -/
inductive Val
  | arr (a : Arr)
  | struct (ptr : Name → Option Nat) (val : Name → Arr)

/-- A device buffer with its ledger. -/
structure Cell where
  val : Val
  frees : Nat
  reclaimed : Bool

/-- A GPU patch: the host attributes, the device buffers (addresses below `next` have been
allocated), `device_ptrs` (absent before the first send), `device_patch`. -/
structure Gpu where
  attr : Name → Option Arr
  next : Nat
  cell : Nat → Cell
  ptrs : Option (Name → Option Nat)
  struct : Option Nat
  returnResidual : Bool
  dirty : Bool

/-- A buffer that is allocated and not released. -/
def Gpu.Live (g : Gpu) (a : Nat) : Prop :=
  a < g.next ∧ (g.cell a).frees = 0 ∧ (g.cell a).reclaimed = false

instance (g : Gpu) (a : Nat) : Decidable (g.Live a) := by unfold Gpu.Live; infer_instance

/-- `cuda.to_device` / `cuda.mem_alloc`: a new buffer (its address is `g.next`). -/
def Gpu.alloc (g : Gpu) (v : Val) : Gpu :=
  { g with
    next := g.next + 1
    cell := Function.update g.cell g.next { val := v, frees := 0, reclaimed := false } }

/-- `DeviceAllocation.free()`. -/
def Gpu.freeCell (g : Gpu) (a : Nat) : Except Err Gpu :=
  if g.Live a then
    .ok { g with cell := Function.update g.cell a { g.cell a with frees := (g.cell a).frees + 1 } }
  else .error .doubleFree

/-- Storing into a buffer. -/
def Gpu.write (g : Gpu) (a : Nat) (v : Val) : Gpu :=
  { g with cell := Function.update g.cell a { g.cell a with val := v } }

/-- `self.device_ptrs = {}`: the allocations held by the old dictionary are destroyed, which
releases those not freed before (device_patch.py:282). -/
def Gpu.resetPtrs (g : Gpu) : Gpu :=
  match g.ptrs with
  | none => { g with ptrs := some fun _ => none }
  | some p =>
    { g with
      ptrs := some fun _ => none
      cell := fun a =>
        if (names.any fun n => p n == some a) && decide (g.Live a) then
          { g.cell a with reclaimed := true }
        else g.cell a }

/-- `self.device_ptrs[n] = …`: the allocation the entry held before, if any, is destroyed, which
releases it unless it was freed before. -/
def Gpu.bind (g : Gpu) (n : Name) (a : Nat) : Gpu :=
  match g.ptrs with
  | none => g
  | some p =>
    { g with
      ptrs := some (Function.update p n (some a))
      cell := fun b =>
        if p n = some b ∧ g.Live b then { g.cell b with reclaimed := true } else g.cell b }

/-- The loop of `send_to_device` (device_patch.py:283-291): upload every array field, tolerate a
missing `residual`.  The result carries the state at the point of failure. -/
def Gpu.upload : List Name → Gpu → Option Err × Gpu
  | [], g => (none, g)
  | n :: rest, g =>
    match g.attr n with
    | none => if n = residual then Gpu.upload rest g else (some .attributeError, g)
    | some a =>
      if isPtr n then Gpu.upload rest ((g.alloc (.arr a)).bind n g.next)
      else Gpu.upload rest g

/-- `send_patchstruct_to_device` (device_patch.py:313-344). -/
def Gpu.sendStruct (g : Gpu) : Option Err × Gpu :=
  match g.ptrs with
  | none => (some .attributeError, g)
  | some p =>
    if (g.attr n_sources).isNone || (g.attr n_radii).isNone then (some .attributeError, g)
    else
      let v : Val := .struct (fun n => if isPtr n then p n else none)
        (fun n => if isPtr n then fun _ => 0 else (g.attr n).getD fun _ => 0)
      match g.struct with
      | none => (none, { g.alloc v with struct := some g.next })
      | some s =>
        match g.freeCell s with
        | .error e => (some e, g)
        | .ok g1 => (none, { g1.alloc v with struct := some g1.next })

/-- `send_to_device` (device_patch.py:268-300).  `junk` is what the fresh residual buffer holds. -/
def Gpu.send (junk : Arr) (g : Gpu) : Option Err × Gpu :=
  match Gpu.upload names g.resetPtrs with
  | (some e, g1) => (some e, g1)
  | (none, g1) =>
    let g2 := if g1.returnResidual then (g1.alloc (.arr junk)).bind residual g1.next else g1
    match g2.sendStruct with
    | (some e, g3) => (some e, g3)
    | (none, g3) => (none, { g3 with dirty := false })

/-- The loop of `replace_device_meta_ptrs` (device_patch.py:306-311). -/
def Gpu.replaceMeta : List Name → Gpu → Option Err × Gpu
  | [], g => (none, g)
  | n :: rest, g =>
    match g.attr n with
    | none => (some .attributeError, g)
    | some a =>
      if isPtr n then
        match g.ptrs with
        | none => (some .attributeError, g)
        | some p =>
          match p n with
          | none => (some .keyError, g)
          | some old =>
            match g.freeCell old with
            | .error e => (some e, g)
            | .ok g1 => Gpu.replaceMeta rest ((g1.alloc (.arr a)).bind n g1.next)
      else Gpu.replaceMeta rest g

/-- Exchanging two entries of the dictionary (device_patch.py:362). -/
def swapPtrs (p : Name → Option Nat) : Name → Option Nat := fun n =>
  if n = data then p residual else if n = residual then p data else p n

/-- `swap_on_device` (device_patch.py:346-367). -/
def Gpu.swap (g : Gpu) : Option Err × Gpu :=
  match g.ptrs with
  | none => (some .attributeError, g)
  | some p =>
    if (p residual).isNone then (some .assertionError, g)
    else
      match Gpu.replaceMeta metaNames g with
      | (some e, g1) => (some e, g1)
      | (none, g1) =>
        let g2 : Gpu := { g1 with ptrs := g1.ptrs.map swapPtrs }
        match g2.sendStruct with
        | (some e, g3) => (some e, g3)
        | (none, g3) => (none, { g3 with dirty := true })

/-- `replace_device_meta_ptrs(); send_patchstruct_to_device()`, the step of `design_matrix`
(device_patch.py:224-225). -/
def Gpu.refresh (g : Gpu) : Option Err × Gpu :=
  match Gpu.replaceMeta metaNames g with
  | (some e, g1) => (some e, g1)
  | (none, g1) => g1.sendStruct

/-- The loop freeing `device_ptrs.values()` (device_patch.py:380-382). -/
def Gpu.freeAll (p : Name → Option Nat) : List Name → Gpu → Option Err × Gpu
  | [], g => (none, g)
  | n :: rest, g =>
    match p n with
    | none => Gpu.freeAll p rest g
    | some a =>
      match g.freeCell a with
      | .error e => (some e, g)
      | .ok g1 => Gpu.freeAll p rest g1

/-- Freeing and deleting `device_patch` (device_patch.py:388-393). -/
def Gpu.freeStruct (g : Gpu) : Option Err × Gpu :=
  match g.struct with
  | none => (none, g)
  | some s =>
    match g.freeCell s with
    | .error e => (some e, g)
    | .ok g1 => (none, { g1 with struct := none })

/-- `free` (device_patch.py:377-393). -/
def Gpu.free (g : Gpu) : Option Err × Gpu :=
  match g.ptrs with
  | none => g.freeStruct
  | some p =>
    match Gpu.freeAll p names g with
    | (some e, g1) => (some e, g1)
    | (none, g1) => Gpu.freeStruct { g1 with ptrs := some fun _ => none }

/-- Reading a live array through a pointer. -/
def Gpu.read (g : Gpu) (a : Nat) : Option Arr :=
  if g.Live a then
    match (g.cell a).val with
    | .arr x => some x
    | .struct _ _ => none
  else none

/-- `retrieve_array` (device_patch.py:369-375). -/
def Gpu.retrieve (g : Gpu) (n : Name) : Except Err Arr :=
  match g.ptrs with
  | none => .error .attributeError
  | some p =>
    match p n with
    | none => .error .keyError
    | some a =>
      match g.read a with
      | none => .error .invalidAccess
      | some x => .ok x

/-- What the kernel reaches through the structure: an array for a pointer field, the value for a
count; `residual` may be null and is only written. -/
def Gpu.deref (g : Gpu) (p : Name → Option Nat) (v : Name → Arr) (n : Name) : Option Arr :=
  if isPtr n then (p n).bind g.read else some (v n)

/-- A kernel call (compute_gaussians_kernel.cu:245-300, called from proposal.py:134-138): every
field except `residual` is read; where the residual pointer is not null, data minus model is
written through it.  Touching a buffer that is not allocated is an invalid access. -/
def Gpu.evaluate {S : Type} (ops : Ops S) (prop : Arr) (g : Gpu) : Option Err × Gpu :=
  match g.struct with
  | none => (some .attributeError, g)
  | some s =>
    if ¬ g.Live s then (some .invalidAccess, g)
    else
      match (g.cell s).val with
      | .arr _ => (some .invalidAccess, g)
      | .struct p v =>
        if (names.filter (· ≠ residual)).any fun n => (g.deref p v n).isNone then
          (some .invalidAccess, g)
        else
          let env : Name → Arr := fun n =>
            if n = data ∨ n = residual then fun _ => 0 else (g.deref p v n).getD fun _ => 0
          let d : Arr := (g.deref p v data).getD fun _ => 0
          match p residual with
          | none => (none, g)
          | some r =>
            if g.Live r then (none, g.write r (.arr (d - ops.model env prop)))
            else (some .invalidAccess, g)

/-- `pack_meta` (patch.py:242-270): fills the metadata attributes; a scene without sources fails at
`scene.sources[0]` (patch.py:295). -/
def Gpu.packMeta {S : Type} (ops : Ops S) (sc : List S) (g : Gpu) : Option Err × Gpu :=
  if sc = [] then (some .indexError, g)
  else (none, { g with attr := fun n => if n ∈ metaNames then some (ops.packed sc n) else g.attr n })

/-- The loop of `subtract_fixed` (device_patch.py:171-181): `prev` is the scene whose metadata are
on the device. -/
def Gpu.subtractLoop {S : Type} (ops : Ops S) : List S → List (List S) → Gpu → Option Err × Gpu
  | _, [], g => (none, g)
  | prev, sc :: rest, g =>
    match g.evaluate ops (ops.proposal prev) with
    | (some e, g1) => (some e, g1)
    | (none, g1) =>
      match g1.packMeta ops sc with
      | (some e, g2) => (some e, g2)
      | (none, g2) =>
        match g2.swap with
        | (some e, g3) => (some e, g3)
        | (none, g3) => Gpu.subtractLoop ops sc rest g3

/-- `subtract_fixed` on a GPU (device_patch.py:113-183).  The scene returned is the last of
`scenes`. -/
def Gpu.subtractFixed {S : Type} (ops : Ops S) (junk : Arr) (m : Nat) (swapLocal : Bool)
    (fixed active big : Option (List S)) (g : Gpu) : Except Err (List S) × Gpu :=
  match scenes m swapLocal fixed active big with
  | .error e => (.error e, g)
  | .ok [] => (.error .assertionError, g)
  | .ok (first :: rest) =>
    let g0 : Gpu := { g with returnResidual := true }
    if g0.dirty then (.error .assertionError, g0)
    else
      match g0.packMeta ops first with
      | (some e, g1) => (.error e, g1)
      | (none, g1) =>
        match g1.send junk with
        | (some e, g2) => (.error e, g2)
        | (none, g2) =>
          match Gpu.subtractLoop ops first rest g2 with
          | (some e, g3) => (.error e, g3)
          | (none, g3) => (.ok ((first :: rest).getLast (by simp)), g3)

/-! ## The CPU device -/

/-- A CPU patch: attributes are references to numpy arrays, `device_ptrs` holds the addresses of
arrays, the structure a copy of them.  An array lives while an attribute refers to it. -/
structure Cpu where
  attr : Name → Option Nat
  next : Nat
  mem : Nat → Arr
  ptrs : Option (Name → Option Nat)
  struct : Option (Name → Option Nat)
  counts : Name → Arr
  dirty : Bool

/-- The array behind an address. -/
def Cpu.load (c : Cpu) : Option Nat → Arr
  | none => fun _ => 0
  | some a => c.mem a

/-- A new array bound to an attribute. -/
def Cpu.setAttr (c : Cpu) (n : Name) (a : Arr) : Cpu :=
  { c with
    attr := Function.update c.attr n (some c.next)
    next := c.next + 1
    mem := Function.update c.mem c.next a }

/-- `pack_meta` on a CPU patch: new arrays for every metadata attribute. -/
def Cpu.packMeta {S : Type} (ops : Ops S) (sc : List S) (c : Cpu) : Option Err × Cpu :=
  if sc = [] then (some .indexError, c)
  else (none, metaNames.foldl (fun c n => c.setAttr n (ops.packed sc n)) c)

/-- `send_patchstruct_to_device` (device_patch.py:495-519): the pointers are copied into the
structure, the two counts by value. -/
def Cpu.sendStruct (c : Cpu) : Option Err × Cpu :=
  match c.ptrs with
  | none => (some .attributeError, c)
  | some p =>
    if (names.filter fun n => isPtr n).any fun n => (p n).isNone then (some .keyError, c)
    else if (c.attr n_sources).isNone || (c.attr n_radii).isNone then (some .attributeError, c)
    else
      (none, { c with
        struct := some p
        counts := fun n => c.load (c.attr n) })

/-- `send_to_device` (device_patch.py:449-481): a zero residual, pointers to every attribute. -/
def Cpu.send (c : Cpu) : Option Err × Cpu :=
  if (c.attr data).isNone then (some .attributeError, c)
  else
    let c1 := c.setAttr residual fun _ => 0
    if (names.filter (· ≠ residual)).any fun n => (c1.attr n).isNone then
      (some .attributeError, { c1 with
        ptrs := some fun n =>
          if isPtr n ∧ n ∈ names.takeWhile (fun k => (c1.attr k).isSome) then c1.attr n else none })
    else
      Cpu.sendStruct { c1 with ptrs := some fun n => if isPtr n then c1.attr n else none }

/-- `swap_on_device` (device_patch.py:521-546): the metadata pointers are renewed, the data and
residual pointers and attributes exchanged.  The dirty flag is not set (device_patch.py:544). -/
def Cpu.swap (c : Cpu) : Option Err × Cpu :=
  match c.ptrs with
  | none => (some .attributeError, c)
  | some p =>
    if (p residual).isNone then (some .assertionError, c)
    else if metaNames.any fun n => (c.attr n).isNone then (some .attributeError, c)
    else
      let p1 : Name → Option Nat := fun n => if n ∈ metaNames ∧ isPtr n then c.attr n else p n
      Cpu.sendStruct { c with ptrs := some (swapPtrs p1), attr := swapPtrs c.attr }

/-- An array that some attribute refers to. -/
def Cpu.live (c : Cpu) (a : Nat) : Bool := names.any fun n => c.attr n == some a

/-- A kernel call (compute_gaussians_kernel.cc:245-310): as on the GPU, through the pointers held in
the structure. -/
def Cpu.evaluate {S : Type} (ops : Ops S) (prop : Arr) (c : Cpu) : Option Err × Cpu :=
  match c.struct with
  | none => (some .attributeError, c)
  | some p =>
    if (names.filter fun n => isPtr n).any fun n => !(p n).any c.live then
      (some .invalidAccess, c)
    else
      let deref : Name → Arr := fun n =>
        if isPtr n then c.load (p n) else c.counts n
      let env : Name → Arr := fun n => if n = data ∨ n = residual then fun _ => 0 else deref n
      match p residual with
      | none => (none, c)
      | some r => (none, { c with mem := Function.update c.mem r (deref data - ops.model env prop) })

/-- `retrieve_array` (device_patch.py:548-555): a copy of the attribute. -/
def Cpu.retrieve (c : Cpu) (n : Name) : Except Err Arr :=
  match c.attr n with
  | none => .error .attributeError
  | some a => .ok (c.mem a)

/-- The loop of `subtract_fixed` (device_patch.py:171-181). -/
def Cpu.subtractLoop {S : Type} (ops : Ops S) : List S → List (List S) → Cpu → Option Err × Cpu
  | _, [], c => (none, c)
  | prev, sc :: rest, c =>
    match c.evaluate ops (ops.proposal prev) with
    | (some e, c1) => (some e, c1)
    | (none, c1) =>
      match c1.packMeta ops sc with
      | (some e, c2) => (some e, c2)
      | (none, c2) =>
        match c2.swap with
        | (some e, c3) => (some e, c3)
        | (none, c3) => Cpu.subtractLoop ops sc rest c3

/-- `subtract_fixed` on a CPU (device_patch.py:113-183). -/
def Cpu.subtractFixed {S : Type} (ops : Ops S) (m : Nat) (swapLocal : Bool)
    (fixed active big : Option (List S)) (c : Cpu) : Except Err (List S) × Cpu :=
  match scenes m swapLocal fixed active big with
  | .error e => (.error e, c)
  | .ok [] => (.error .assertionError, c)
  | .ok (first :: rest) =>
    if c.dirty then (.error .assertionError, c)
    else
      match c.packMeta ops first with
      | (some e, c1) => (.error e, c1)
      | (none, c1) =>
        match c1.send with
        | (some e, c2) => (.error e, c2)
        | (none, c2) =>
          match Cpu.subtractLoop ops first rest c2 with
          | (some e, c3) => (.error e, c3)
          | (none, c3) => (.ok ((first :: rest).getLast (by simp)), c3)

end Forcepho.Device
