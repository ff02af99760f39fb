import Verif.Device.Classes
import Verif.Device.History

/-!
# Which `free` a patch runs

With the storage class written first, as in every class of the package and of its examples, the
`free` of a patch is the empty one of `PatchBase`, and the device buffers stay allocated until the
handles are destroyed.
-/

set_option autoImplicit false

namespace Forcepho.Device.Classes

open Cls

/-! ## Two unrelated bases -/

/-- A number that decreases from a class to its bases. -/
def rank : Cls → Nat
  | patchBase => 0
  | patch => 1
  | pixelPatch => 2
  | storePatch => 3
  | fitsPatch => 3
  | directPatch => 3
  | staticPatch => 1
  | devicePatchMixin => 0
  | gpuPatchMixin => 1
  | cpuPatchMixin => 1
  | jadesPatch => 4
  | simplePatch => 4
  | sub b _ => rank b + 1
  | pair a b _ => max (rank a) (rank b) + 1

lemma rank_bases (c b : Cls) (h : b ∈ bases c) : rank b < rank c := by
  cases c <;> simp [bases] at h <;> (try subst h) <;> (try (simp [rank])) <;>
    rcases h with h | h <;> subst h <;> simp [rank] <;> omega

lemma rank_mro (n : Nat) : ∀ (c : Cls) (r : List Cls), mro bases n c = some r →
    ∀ x ∈ r, rank x ≤ rank c := by
  induction n with
  | zero => intro c r h; simp [mro] at h
  | succ n ih =>
    intro c r h x hx
    obtain ⟨t, e, _, _, _, h5⟩ := C149_order bases n c r h
    subst e
    rcases List.mem_cons.mp hx with e | hx
    · rw [e]
    · obtain ⟨b, hb, rb, h6, h7⟩ := h5 x hx
      have := ih b rb h6 x h7
      have := rank_bases c b hb
      omega

lemma mro_nodup (n : Nat) (c : Cls) (r : List Cls) (h : mro bases n c = some r) : r.Nodup := by
  cases n with
  | zero => simp [mro] at h
  | succ n =>
    obtain ⟨t, e, _, h2, _, h5⟩ := C149_order bases n c r h
    subst e
    refine List.nodup_cons.mpr ⟨?_, h2⟩
    intro hc
    obtain ⟨b, hb, rb, h6, h7⟩ := h5 c hc
    have := rank_mro n b rb h6 c h7
    have := rank_bases c b hb
    omega

/-- C149 (two bases). Whatever classes a user derives: a class with two bases that have no class in
common resolves a name it does not define itself to what the first base has, and to what the second
base has only where the first has nothing. -/
theorem C149_compose (x m : Cls) (ns : List String) (lx lm : List Cls)
    (hx : order x = some lx) (hm : order m = some lm) (hd : ∀ c ∈ lx, c ∉ lm) :
    order (pair x m ns) = some (pair x m ns :: lx ++ lm) ∧
    ∀ name, name ∉ ns →
      resolve (pair x m ns) name =
        match resolve x name with
        | some c => some c
        | none => resolve m name := by
  unfold order at hx hm
  have hx' := mro_le bases (depth x) (max (depth x) (depth m)) (le_max_left _ _) x lx hx
  have hm' := mro_le bases (depth m) (max (depth x) (depth m)) (le_max_right _ _) m lm hm
  obtain ⟨tx, ex, _⟩ := mro_head _ _ _ _ hx
  obtain ⟨tm, em, _⟩ := mro_head _ _ _ _ hm
  have hnd : (lx ++ lm).Nodup := by
    rw [List.nodup_append]
    refine ⟨mro_nodup _ _ _ hx, mro_nodup _ _ _ hm, ?_⟩
    intro a ha b hb e
    subst e
    exact hd a ha hb
  have ho : order (pair x m ns) = some (pair x m ns :: lx ++ lm) := by
    have hb : bases (pair x m ns) = [x, m] := rfl
    have hs : allSome ([x, m].map (mro bases (max (depth x) (depth m)))) = some [lx, lm] := by
      simp [allSome, hx', hm']
    show mro bases (max (depth x) (depth m) + 1) (pair x m ns) = _
    rw [mro, hb, hs]
    subst ex em
    have := merge_pair x m tx tm hnd
      ((([x :: tx, m :: tm] ++ [[x, m]]).map List.length).sum + 1) (by simp; omega)
    simp only [List.cons_append, List.nil_append] at this ⊢
    rw [this]
    rfl
  refine ⟨ho, ?_⟩
  intro name hn
  unfold resolve
  rw [ho]
  unfold order
  rw [hx, hm]
  simp only [Option.bind_some]
  have h0 : (defines (pair x m ns)).contains name = false := by
    simpa [defines] using hn
  rw [List.cons_append, List.find?_cons, h0]
  simp only
  rw [List.find?_append]
  cases lx.find? fun k => (defines k).contains name <;> simp

/-- Orders of the classes of the package. -/
lemma orders :
    order storePatch = some [storePatch, pixelPatch, patch, patchBase] ∧
    order fitsPatch = some [fitsPatch, pixelPatch, patch, patchBase] ∧
    order directPatch = some [directPatch, pixelPatch, patch, patchBase] ∧
    order staticPatch = some [staticPatch, patchBase] ∧
    order gpuPatchMixin = some [gpuPatchMixin, devicePatchMixin] ∧
    order cpuPatchMixin = some [cpuPatchMixin, devicePatchMixin] := by
  decide +kernel

/-- C149 (what fits together). `JadesPatch` and `SimplePatch`, and a class made of any of the three
storage classes and either mixin in either order, find the pixels with the storage class, pack with
`Patch` and `PixelPatch`, and send, swap, retrieve and propose with the mixin chosen; the class
statement never fails. -/
theorem C149_methods :
    (∀ s ∈ [storePatch, fitsPatch, directPatch], ∀ d ∈ [gpuPatchMixin, cpuPatchMixin],
      ∀ c ∈ [pair s d [], pair d s []],
        (∀ n ∈ ["__init__", "find_exposures", "find_pixels"], resolve c n = some s) ∧
        (∀ n ∈ ["build_patch", "pack_pix", "_cap_snr"], resolve c n = some pixelPatch) ∧
        (∀ n ∈ ["pack_meta", "set_scene", "zerocoords", "unzerocoords", "split_pix", "split_band"],
          resolve c n = some patch) ∧
        (∀ n ∈ ["npix", "size", "clear", "__del__"], resolve c n = some patchBase) ∧
        (∀ n ∈ ["get_proposer", "send_to_device", "replace_device_meta_ptrs",
            "send_patchstruct_to_device", "swap_on_device", "retrieve_array"],
          resolve c n = some d) ∧
        (∀ n ∈ ["prepare_model", "subtract_fixed", "design_matrix", "render"],
          resolve c n = some devicePatchMixin)) ∧
    (∀ n, resolve jadesPatch n = resolve (pair storePatch gpuPatchMixin []) n) ∧
    (∀ n, resolve simplePatch n = resolve (pair fitsPatch gpuPatchMixin []) n) := by
  refine ⟨by decide +kernel, ?_, ?_⟩
  · intro n
    have h1 : order jadesPatch = some [jadesPatch, storePatch, pixelPatch, patch, patchBase,
      gpuPatchMixin, devicePatchMixin] := by decide +kernel
    have h2 : order (pair storePatch gpuPatchMixin []) = some [pair storePatch gpuPatchMixin [],
      storePatch, pixelPatch, patch, patchBase, gpuPatchMixin, devicePatchMixin] := by decide +kernel
    unfold resolve
    rw [h1, h2]
    simp [defines]
  · intro n
    have h1 : order simplePatch = some [simplePatch, fitsPatch, pixelPatch, patch, patchBase,
      gpuPatchMixin, devicePatchMixin] := by decide +kernel
    have h2 : order (pair fitsPatch gpuPatchMixin []) = some [pair fitsPatch gpuPatchMixin [],
      fitsPatch, pixelPatch, patch, patchBase, gpuPatchMixin, devicePatchMixin] := by decide +kernel
    unfold resolve
    rw [h1, h2]
    simp [defines]

/-! ## free -/

/-- C149 (storage class first). A class whose first base is any storage class, of the package or of
a user, whose `free` is that of `PatchBase`, and whose second base is any class unrelated to it, has a
`free` that does nothing, whatever is on the device. -/
theorem C149_free_empty (x m : Cls) (ns : List String) (lx lm : List Cls)
    (hx : order x = some lx) (hm : order m = some lm) (hd : ∀ c ∈ lx, c ∉ lm)
    (hn : "free" ∉ ns) (hf : resolve x "free" = some patchBase) (g : Gpu) :
    callFree (pair x m ns) g = some (none, g) := by
  have h := (C149_compose x m ns lx lm hx hm hd).2 "free" hn
  rw [hf] at h
  unfold callFree
  rw [h]

/-- A class of a user below `StorePatch` with a method of its own meets the hypotheses. -/
example : ∃ lx lm, order (sub storePatch ["find_pixels"]) = some lx ∧
    order gpuPatchMixin = some lm ∧ (∀ c ∈ lx, c ∉ lm) ∧
    resolve (sub storePatch ["find_pixels"]) "free" = some patchBase ∧
    resolve (sub storePatch ["find_pixels"]) "find_pixels" =
      some (sub storePatch ["find_pixels"]) :=
  ⟨[sub storePatch ["find_pixels"], storePatch, pixelPatch, patch, patchBase],
    [gpuPatchMixin, devicePatchMixin], by decide +kernel, by decide +kernel, by decide +kernel,
    by decide +kernel, by decide +kernel⟩

lemma send_struct (junk : Arr) (g : Gpu) (h : (g.send junk).1 = none) :
    (g.send junk).2.struct ≠ none := by
  have aux : ∀ g : Gpu, g.sendStruct.1 = none → g.sendStruct.2.struct ≠ none := by
    intro g h
    unfold Gpu.sendStruct at h ⊢
    split
    · rename_i hp; rw [hp] at h; cases h
    · rename_i p hp
      rw [hp] at h
      simp only at h ⊢
      split
      · rename_i hc; rw [if_pos hc] at h; cases h
      · rename_i hc
        rw [if_neg hc] at h
        split
        · simp
        · rename_i s hs
          rw [hs] at h
          simp only at h
          split
          · rename_i e he; rw [he] at h; cases h
          · simp
  unfold Gpu.send at h ⊢
  rcases hu : Gpu.upload names g.resetPtrs with ⟨_ | e, g1⟩
  · rw [hu] at h
    simp only at h ⊢
    have := aux (if g1.returnResidual then (g1.alloc (.arr junk)).bind Name.residual g1.next else g1)
    rcases hs : Gpu.sendStruct
      (if g1.returnResidual then (g1.alloc (.arr junk)).bind Name.residual g1.next else g1)
      with ⟨_ | e, g3⟩
    · rw [hs] at this
      exact this rfl
    · rw [hs] at h; cases h
  · rw [hu] at h; cases h

lemma run_residual (ops : List Op) : ∀ g : Gpu, g.attr Name.residual = none →
    (run g ops).2.attr Name.residual = none := by
  induction ops with
  | nil => intro g h; exact h
  | cons o rest ih => intro g h; exact ih _ (step_residual g o h)

/-- C149 (memory is not released). For `JadesPatch`, `SimplePatch` and every class made of a storage
class of the package followed by the GPU mixin: after any history without exceptions that ends with
a transfer to the device, `free()` leaves the patch as it was, with the structure and all seventeen
arrays still allocated. -/
theorem C149_free_refuted (c : Cls)
    (hc : c ∈ [jadesPatch, simplePatch, pair storePatch gpuPatchMixin [],
      pair fitsPatch gpuPatchMixin [], pair directPatch gpuPatchMixin []])
    (ops : List Op) (junk : Arr)
    (h : ∀ r ∈ (run fresh ops).1, r = none)
    (hs : (step (run fresh ops).2 (.send junk)).1 = none) :
    ∃ g', callFree c (step (run fresh ops).2 (.send junk)).2 = some (none, g') ∧
      (∃ s, g'.struct = some s ∧ g'.Live s) ∧
      ∃ p, g'.ptrs = some p ∧
        ∀ n ∈ [Name.data, .ierr, .xpix, .ypix, .exposure_start, .exposure_N, .band_start, .band_N,
          .rad2, .D, .crpix, .crval, .CW, .G, .n_psf_per_source, .psfgauss, .psfgauss_start],
          ∃ a, p n = some a ∧ g'.Live a := by
  have hf : ∀ c ∈ [jadesPatch, simplePatch, pair storePatch gpuPatchMixin [],
      pair fitsPatch gpuPatchMixin [], pair directPatch gpuPatchMixin []],
      resolve c "free" = some patchBase := by decide +kernel
  have e : ∀ g, callFree c g = some (none, g) := by
    intro g; unfold callFree; rw [hf c hc]
  obtain ⟨h1, _⟩ := run_good ops fresh wf_fresh rfl (Or.inl ⟨rfl, fun p hp => by cases hp⟩) h
  have hw := (run_safe ops fresh wf_fresh).2
  have hw' := (step_safe _ hw (.send junk)).2
  have hst := send_struct junk _ hs
  have hres : (run fresh ops).2.attr Name.residual = none := 
    run_residual ops fresh rfl
  have hg : Good (run fresh ops).2 := h1
  have hg' := step_good _ hw hres hg (.send junk) hs
  refine ⟨_, e _, ?_⟩
  rcases hg' with ⟨h3, _⟩ | ⟨p, s, v, g1, g2, g3, g4, g5⟩
  · exact absurd h3 hst
  · refine ⟨⟨s, g2, hw'.struct_live s g2⟩, p, g1, ?_⟩
    intro n hn
    have : isPtr n = true ∧ n ≠ Name.residual := by
      revert n; decide
    obtain ⟨a, ha⟩ := g4 n this.1 this.2
    exact ⟨a, ha, hw'.live g1 ha⟩

/-- The hypotheses hold after packing and sending; eighteen buffers stay. -/
example (c : Cls) (hc : c ∈ [jadesPatch, simplePatch]) :
    (∀ r ∈ (run fresh [.repack exAttr]).1, r = none) ∧
    (step (run fresh [.repack exAttr]).2 (.send exJunk)).1 = none ∧
    ∃ g', callFree c (step (run fresh [.repack exAttr]).2 (.send exJunk)).2 = some (none, g') ∧
      g'.next = 18 ∧ ∀ a < 18, g'.Live a := by
  have hf : ∀ c ∈ [jadesPatch, simplePatch], resolve c "free" = some patchBase := by decide +kernel
  refine ⟨by decide +kernel, by decide +kernel, (step (run fresh [.repack exAttr]).2 (.send exJunk)).2,
    ?_, by decide +kernel, by decide +kernel⟩
  unfold callFree; rw [hf c hc]

/-- C149 (mixin first). With the GPU mixin first `free()` never raises, and afterwards every buffer
ever allocated has been released exactly once, for every history and any storage class, of the
package or of a user, unrelated to the mixins. -/
theorem C149_free_partial (x : Cls) (ns : List String) (lx : List Cls) (hx : order x = some lx)
    (hd : gpuPatchMixin ∉ lx ∧ devicePatchMixin ∉ lx) (hn : "free" ∉ ns) (ops : List Op) :
    ∃ g', callFree (pair gpuPatchMixin x ns) (run fresh ops).2 = some (none, g') ∧
      ∀ a < g'.next, (g'.cell a).frees + (g'.cell a).reclaimed.toNat = 1 := by
  have hg := orders.2.2.2.2.1
  have h := (C149_compose gpuPatchMixin x ns _ lx hg hx (by
    intro c hc
    simp only [List.mem_cons, List.not_mem_nil, or_false] at hc
    rcases hc with rfl | rfl
    · exact hd.1
    · exact hd.2)).2 "free" hn
  have hr : resolve gpuPatchMixin "free" = some gpuPatchMixin := by decide +kernel
  rw [hr] at h
  obtain ⟨f1, f2, _⟩ := C48_final_free_partial ops
  refine ⟨(run fresh ops).2.free.2, ?_, f2⟩
  unfold callFree
  rw [h]
  have : (run fresh ops).2.free.1 = none := f1
  simp only
  rw [← this]

/-! ## Destruction -/

lemma drop_released (g : Gpu) (h : WF g) : ∀ a < (dropHandles g).next,
    ((dropHandles g).cell a).frees + ((dropHandles g).cell a).reclaimed.toNat = 1 := by
  have hw := wf_reset g h
  intro a ha
  have hn : (dropHandles g).next = g.resetPtrs.next := by
    unfold dropHandles
    simp only
    split <;> rfl
  rw [hn] at ha
  have hone := hw.once a ha
  have hheld := hw.held a
  have hp := reset_ptrs g
  unfold dropHandles
  simp only
  have dead : ¬ g.resetPtrs.Live a →
      (g.resetPtrs.cell a).frees + (g.resetPtrs.cell a).reclaimed.toNat = 1 := by
    intro hl
    by_contra hne
    apply hl
    have : (g.resetPtrs.cell a).frees = 0 ∧ (g.resetPtrs.cell a).reclaimed.toNat = 0 := by omega
    exact ⟨ha, this.1, by simpa using this.2⟩
  split
  · rename_i hs
    apply dead
    intro hl
    rcases hheld hl with h1 | ⟨p, n, h1, h2⟩
    · rw [hs] at h1; cases h1
    · rw [hp] at h1
      obtain rfl := Option.some.inj h1
      cases h2
  · rename_i s hs
    by_cases hc : a = s ∧ g.resetPtrs.Live a
    · simp only [if_pos hc]
      have := hc.2.2.1
      rw [this]
      rfl
    · simp only [hc, if_false]
      apply dead
      intro hl
      rcases hheld hl with h1 | ⟨p, n, h1, h2⟩
      · rw [hs] at h1
        exact hc ⟨(Option.some.inj h1).symm, hl⟩
      · rw [hp] at h1
        obtain rfl := Option.some.inj h1
        cases h2

/-- C149 (destruction). Whatever the history and whichever of the three `free` a class has, when the
patch is destroyed every buffer it ever allocated has been released exactly once and nothing packed
is left. -/
theorem C149_destroy (c : Cls)
    (hc : resolve c "free" = some patchBase ∨ resolve c "free" = some devicePatchMixin ∨
      resolve c "free" = some gpuPatchMixin) (ops : List Op) :
    ∃ g', destroy c (run fresh ops).2 = some g' ∧ (∀ n, g'.attr n = none) ∧
      ∀ a < g'.next, (g'.cell a).frees + (g'.cell a).reclaimed.toNat = 1 := by
  have hw := (run_safe ops fresh wf_fresh).2
  have key : ∀ g, WF g → ∀ n, (dropHandles (clear g)).attr n = none := by
    intro g _ n
    have : ∀ g : Gpu, (dropHandles g).attr = g.attr := by
      intro g
      unfold dropHandles Gpu.resetPtrs
      cases g.ptrs <;> simp only <;> split <;> rfl
    rw [this]; rfl
  have keyw : ∀ g, WF g → WF (clear g) := fun g h => wf_attr g _ h
  have pass : callFree c (run fresh ops).2 = some (none, (run fresh ops).2) ∨
      callFree c (run fresh ops).2 = some (run fresh ops).2.free := by
    unfold callFree
    rcases hc with h | h | h <;> rw [h] <;> simp
  rcases pass with h | h
  · refine ⟨_, ?_, key _ hw, drop_released _ (keyw _ hw)⟩
    unfold destroy
    rw [h]
    rfl
  · obtain ⟨f1, f2, f3⟩ := free_safe _ hw
    refine ⟨_, ?_, key _ f2, drop_released _ (keyw _ f2)⟩
    unfold destroy
    rw [h]
    simp only [Option.map_some, f1]

/-- All three occur. -/
example : resolve jadesPatch "free" = some patchBase ∧
    resolve (pair cpuPatchMixin fitsPatch []) "free" = some devicePatchMixin ∧
    resolve (pair gpuPatchMixin fitsPatch []) "free" = some gpuPatchMixin := by
  decide +kernel

/-! ## size, npix, clear -/

/-- C149 (size). `size` is the total of the bytes of the attributes present, each of the twenty
fields counted once; it is zero exactly when no attribute with bytes is present. -/
theorem C149_size (t : Attrs) :
    size t = ([Name.data, .ierr, .xpix, .ypix, .residual, .exposure_start, .exposure_N, .band_start,
      .band_N, .n_sources, .n_radii, .rad2, .D, .crpix, .crval, .CW, .G, .n_psf_per_source,
      .psfgauss, .psfgauss_start].map fun n => ((t n).getD none).getD 0).sum ∧
    (size t = 0 ↔ ∀ n b, t n = some (some b) → b = 0) := by
  constructor
  · unfold size names
    congr 1
    apply List.map_congr_left
    intro n _
    split
    · rename_i h; rw [h]; rfl
    · rename_i h
      cases ht : t n with
      | none => rfl
      | some v =>
        cases v with
        | none => rfl
        | some b => exact absurd ht (h b)
  · unfold size
    rw [List.sum_eq_zero_iff]
    constructor
    · intro h n b hb
      apply h
      rw [List.mem_map]
      exact ⟨n, mem_names n, by rw [hb]⟩
    · intro h x hx
      obtain ⟨n, _, e⟩ := List.mem_map.mp hx
      subst e
      split
      · rename_i b hb; exact h n b hb
      · rfl

/-- C149 (clear). `clear` removes the names of the structure, keeps every other attribute, and can
be repeated; afterwards `npix` is zero. -/
theorem C149_clear {V : Type} (inStruct : String → Bool) (t : String → Option V) :
    (∀ n, inStruct n = true → clearAttrs inStruct t n = none) ∧
    (∀ n, inStruct n = false → clearAttrs inStruct t n = t n) ∧
    clearAttrs inStruct (clearAttrs inStruct t) = clearAttrs inStruct t ∧
    (∀ len : V → Nat, inStruct "xpix" = true →
      npix ((clearAttrs inStruct t "xpix").map len) = 0) ∧
    ∀ k, npix (some k) = k := by
  refine ⟨?_, ?_, ?_, ?_, fun _ => rfl⟩
  · intro n h; simp [clearAttrs, h]
  · intro n h; simp [clearAttrs, h]
  · funext n
    by_cases h : inStruct n = true <;> simp [clearAttrs, h]
  · intro len h
    simp [clearAttrs, h, npix]

/-- Two arrays of 400 and 800 bytes and a plain integer. -/
example : size (fun n => if n = Name.xpix then some (some 400) else if n = Name.data then
    some (some 800) else if n = Name.n_radii then some none else none) = 1200 := by decide +kernel

end Forcepho.Device.Classes
