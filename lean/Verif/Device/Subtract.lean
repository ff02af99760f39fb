import Verif.Device.Ledger
import Mathlib.Tactic.Ring
import Mathlib.Tactic.Abel

/-!
# C47: subtracting fixed sources on the GPU
-/

set_option autoImplicit false
set_option linter.unusedSectionVars false

namespace Forcepho.Device

/-! ## Blocks -/

lemma arraySplitFrom_flatten {α : Type} (l : List α) (inds : List Nat) : ∀ st,
    List.Pairwise (· ≤ ·) (st :: inds) → (arraySplitFrom l st inds).flatten = l.drop st := by
  induction inds with
  | nil => intro st _; simp [arraySplitFrom]
  | cons e rest ih =>
    intro st h
    have h1 := List.pairwise_cons.mp h
    have hse : st ≤ e := h1.1 e List.mem_cons_self
    unfold arraySplitFrom
    rw [List.flatten_cons, ih e h1.2]
    have : l.drop st = (l.take e).drop st ++ l.drop e := by
      conv_lhs => rw [← List.take_append_drop e l]
      rw [List.drop_append]
      congr 1
      rw [List.length_take]
      by_cases hl : e ≤ l.length
      · rw [min_eq_left hl]
        have : st - e = 0 := by omega
        rw [this, List.drop_zero]
      · rw [min_eq_right (by omega)]
        have : l.drop e = [] := List.drop_eq_nil_of_le (by omega)
        rw [this]; simp
    rw [this]

lemma arange_sorted (m n : Nat) : List.Pairwise (· ≤ ·) (0 :: arange m n) := by
  unfold arange
  rw [List.pairwise_cons]
  refine ⟨fun a _ => Nat.zero_le a, ?_⟩
  rw [List.pairwise_map]
  apply List.Pairwise.imp _ (List.pairwise_lt_range)
  intro a b hab
  exact Nat.mul_le_mul_right m (by omega)

lemma arraySplitFrom_sizes {α : Type} (l : List α) (m : Nat) (hm : 0 < m) (k : Nat) : ∀ j,
    (j + k) * m < l.length → l.length ≤ (j + k + 1) * m →
    ∀ b ∈ arraySplitFrom l (j * m) ((List.range k).map fun i => (j + i + 1) * m),
      b ≠ [] ∧ b.length ≤ m := by
  induction k with
  | zero =>
    intro j h1 h2 b hb
    simp only [List.range_zero, List.map_nil, arraySplitFrom, List.mem_singleton] at hb
    subst hb
    rw [add_zero] at h1 h2
    constructor
    · intro hc
      have := List.drop_eq_nil_iff.mp hc
      omega
    · rw [List.length_drop]
      have : (j + 1) * m = j * m + m := by ring
      omega
  | succ k ih =>
    intro j h1 h2 b hb
    rw [List.range_succ_eq_map, List.map_cons, List.map_map] at hb
    unfold arraySplitFrom at hb
    rw [add_zero] at hb
    rcases List.mem_cons.mp hb with rfl | hb
    · have hj : (j + 1) * m = j * m + m := by ring
      have hle : (j + 1) * m ≤ (j + (k + 1)) * m := Nat.mul_le_mul_right m (by omega)
      have hlen : ((l.take ((j + 1) * m)).drop (j * m)).length = m := by
        rw [List.length_drop, List.length_take]
        omega
      exact ⟨fun hc => by rw [hc] at hlen; simp at hlen; omega, hlen.le⟩
    · refine ih (j + 1) ?_ ?_ b ?_
      · have : j + 1 + k = j + (k + 1) := by ring
        rw [this]; exact h1
      · have : j + 1 + k = j + (k + 1) := by ring
        rw [this]; exact h2
      · convert hb using 2
        apply List.map_congr_left
        intro i _
        simp only [Function.comp_def, Nat.succ_eq_add_one]
        ring

/-- The blocks are a partition of the catalog in order; if the catalog is not empty, no block is
empty and none exceeds the block size. -/
lemma blocks_ok {α : Type} (m : Nat) (hm : 0 < m) (cat : List α) :
    ∃ bs, blocks m cat = .ok bs ∧ bs.flatten = cat ∧
      (cat ≠ [] → ∀ b ∈ bs, b ≠ [] ∧ b.length ≤ m) := by
  refine ⟨arraySplitFrom cat 0 (arange m cat.length), ?_, ?_, ?_⟩
  · unfold blocks; rw [if_neg (by omega)]
  · rw [arraySplitFrom_flatten _ _ _ (arange_sorted m _), List.drop_zero]
  · intro hne b hb
    have hl : 0 < cat.length := List.length_pos_iff.mpr hne
    have hdiv := Nat.div_add_mod (cat.length - 1) m
    have hmod := Nat.mod_lt (cat.length - 1) hm
    apply arraySplitFrom_sizes cat m hm ((cat.length - 1) / m) 0
    · have : (0 + (cat.length - 1) / m) * m = m * ((cat.length - 1) / m) := by ring
      omega
    · have : (0 + (cat.length - 1) / m + 1) * m = m * ((cat.length - 1) / m) + m := by ring
      omega
    · rw [Nat.zero_mul]
      unfold arange at hb
      simpa using hb

/-! ## Following the contents through the operations -/

lemma read_alloc_new (g : Gpu) (x : Arr) : (g.alloc (.arr x)).read g.next = some x := by
  have hl : (g.alloc (.arr x)).Live g.next := (live_alloc g _ _).mpr (Or.inr rfl)
  unfold Gpu.read
  rw [if_pos hl]
  simp [Gpu.alloc]

lemma alloc_cell_of_live (g : Gpu) (v : Val) (a : Nat) (h : g.Live a) :
    (g.alloc v).cell a = g.cell a := by
  have : a ≠ g.next := by
    rintro rfl; exact not_live_next g h
  unfold Gpu.alloc
  exact Function.update_of_ne this _ _

lemma bind_cell (g : Gpu) (p : Name → Option Nat) (hp : g.ptrs = some p) (n : Name) (b a : Nat)
    (h : p n ≠ some a) : (g.bind n b).cell a = g.cell a := by
  unfold Gpu.bind
  rw [hp]
  show (if p n = some a ∧ g.Live a then _ else _) = _
  rw [if_neg (fun hc => h hc.1)]

lemma read_congr (g g' : Gpu) (a : Nat) (h1 : g.Live a) (h2 : g'.Live a)
    (h3 : g'.cell a = g.cell a) : g'.read a = g.read a := by
  unfold Gpu.read
  rw [if_pos h1, if_pos h2, h3]

/-- Facts about allocating and binding an entry. -/
lemma allocBind_facts (g : Gpu) (p : Name → Option Nat) (hp : g.ptrs = some p)
    (hlt : ∀ n a, p n = some a → a < g.next) (n : Name) (x : Arr) :
    ((g.alloc (.arr x)).bind n g.next).ptrs = some (Function.update p n (some g.next)) ∧
    ((g.alloc (.arr x)).bind n g.next).attr = g.attr ∧
    ((g.alloc (.arr x)).bind n g.next).struct = g.struct ∧
    ((g.alloc (.arr x)).bind n g.next).returnResidual = g.returnResidual ∧
    ((g.alloc (.arr x)).bind n g.next).dirty = g.dirty ∧
    ((g.alloc (.arr x)).bind n g.next).read g.next = some x ∧
    (∀ a, g.Live a → p n ≠ some a → ((g.alloc (.arr x)).bind n g.next).Live a ∧
      ((g.alloc (.arr x)).bind n g.next).cell a = g.cell a) := by
  have hpa : (g.alloc (.arr x)).ptrs = some p := hp
  have hfresh : p n ≠ some g.next := fun hc => absurd (hlt n _ hc) (by omega)
  refine ⟨bind_ptrs _ p hpa _ _, ?_, ?_, ?_, ?_, ?_, ?_⟩
  · unfold Gpu.bind; rw [hpa]; rfl
  · unfold Gpu.bind; rw [hpa]; rfl
  · unfold Gpu.bind; rw [hpa]; rfl
  · unfold Gpu.bind; rw [hpa]; rfl
  · have hl : (g.alloc (.arr x)).Live g.next := (live_alloc g _ _).mpr (Or.inr rfl)
    rw [read_congr (g.alloc (.arr x)) _ g.next hl ((live_bind _ p hpa _ _ _).mpr ⟨hl, hfresh⟩)
      (bind_cell _ p hpa _ _ _ hfresh)]
    exact read_alloc_new g x
  · intro a ha hne
    refine ⟨(live_bind _ p hpa _ _ _).mpr ⟨(live_alloc g _ _).mpr (Or.inl ha), hne⟩, ?_⟩
    rw [bind_cell _ p hpa _ _ _ hne, alloc_cell_of_live g _ a ha]

/-- What an upload or a replacement of the entries `L` achieves. -/
structure Renewed (g g' : Gpu) (p p' : Name → Option Nat) (L : List Name) (A : Name → Arr) : Prop where
  wf : WF g'
  ptrs : g'.ptrs = some p'
  attr : g'.attr = g.attr
  struct : g'.struct = g.struct
  returnResidual : g'.returnResidual = g.returnResidual
  dirty : g'.dirty = g.dirty
  other : ∀ n, (n ∉ L ∨ isPtr n = false) → p' n = p n
  new : ∀ n ∈ L, isPtr n = true → ∃ a, p' n = some a ∧ g'.read a = some (A n)
  keep : ∀ a, g.Live a → (∀ n ∈ L, isPtr n = true → p n ≠ some a) →
    g'.Live a ∧ g'.cell a = g.cell a

lemma replaceMeta_ok (A : Name → Arr) (L : List Name) : L.Nodup → ∀ (g : Gpu) (p : Name → Option Nat),
    WF g → g.ptrs = some p → (∀ n ∈ L, g.attr n = some (A n)) →
    (∀ n ∈ L, isPtr n = true → ∃ a, p n = some a) →
    ∃ g' p', Gpu.replaceMeta L g = (none, g') ∧ Renewed g g' p p' L A := by
  induction L with
  | nil =>
    intro _ g p h hp _ _
    exact ⟨g, p, rfl, h, hp, rfl, rfl, rfl, rfl, fun _ _ => rfl, by simp, fun a ha _ => ⟨ha, rfl⟩⟩
  | cons n rest ih =>
    intro hnd g p h hp hA hb
    rw [List.nodup_cons] at hnd
    unfold Gpu.replaceMeta
    rw [hA n List.mem_cons_self]
    simp only
    by_cases hn : isPtr n = true
    · rw [if_pos hn, hp]
      simp only
      obtain ⟨old, ho⟩ := hb n List.mem_cons_self hn
      rw [ho]
      simp only
      obtain ⟨g1, hg1⟩ := freeCell_ok g old (h.live hp ho)
      rw [hg1]
      simp only
      obtain ⟨hl, e1, e2, e3, e4, e5, e6, e7, e8, e9, e10⟩ := live_free g g1 old hg1
      have hp1 : g1.ptrs = some p := e1.trans hp
      have hw1 := wf_freePtr g g1 _ h p hp n old ho hg1
      have hw2 := wf_allocBind g1 _ n (.arr (A n)) hw1 (fun k hk => hk.elim (fun f => f.elim) id) p hp1
      obtain ⟨f1, f2, f3, f4, f5, f6, f7⟩ := allocBind_facts g1 p hp1
        (fun k a hk => by rw [e3]; exact h.ptr_lt p hp k a hk) n (A n)
      set g2 := (g1.alloc (.arr (A n))).bind n g1.next with hg2
      obtain ⟨g', p', r, R⟩ := ih hnd.2 g2 _ hw2 f1
        (fun k hk => by rw [f2, e4]; exact hA k (List.mem_cons_of_mem _ hk))
        (fun k hk hk2 => by
          have : k ≠ n := fun hc => hnd.1 (hc ▸ hk)
          rw [Function.update_of_ne this]
          exact hb k (List.mem_cons_of_mem _ hk) hk2)
      refine ⟨g', p', r, R.wf, R.ptrs, ?_, ?_, ?_, ?_, ?_, ?_, ?_⟩
      · rw [R.attr, f2, e4]
      · rw [R.struct, f3, e2]
      · rw [R.returnResidual, f4, e5]
      · rw [R.dirty, f5, e6]
      · intro k hk
        have hkn : k ≠ n := by
          rintro rfl
          rcases hk with hk | hk
          · exact hk List.mem_cons_self
          · rw [hn] at hk; cases hk
        rw [R.other k (hk.imp (fun h hc => h (List.mem_cons_of_mem _ hc)) id),
          Function.update_of_ne hkn]
      · intro k hk hk2
        rcases List.mem_cons.mp hk with rfl | hk
        · refine ⟨g1.next, ?_, ?_⟩
          · rw [R.other k (Or.inl hnd.1), Function.update_self]
          · have hlive : g2.Live g1.next := by
              have := f6
              unfold Gpu.read at this
              by_contra hc
              rw [if_neg hc] at this
              cases this
            obtain ⟨k1, k2⟩ := R.keep g1.next hlive (by
              intro j hj hj2 hc
              have hjn : j ≠ k := fun hc => hnd.1 (hc ▸ hj)
              rw [Function.update_of_ne hjn] at hc
              have := h.ptr_lt p hp j _ hc
              omega)
            rw [read_congr g2 g' _ hlive k1 k2]
            exact f6
        · exact R.new k hk hk2
      · intro a ha hna
        have hao : a ≠ old := fun hc => hna n List.mem_cons_self hn (hc ▸ ho)
        have hl1 : g1.Live a := (e7 a).mpr ⟨ha, hao⟩
        have hpa : p n ≠ some a := hna n List.mem_cons_self hn
        obtain ⟨k1, k2⟩ := f7 a hl1 hpa
        obtain ⟨m1, m2⟩ := R.keep a k1 (by
          intro j hj hj2 hc
          have hjn : j ≠ n := fun hc => hnd.1 (hc ▸ hj)
          rw [Function.update_of_ne hjn] at hc
          exact hna j (List.mem_cons_of_mem _ hj) hj2 hc)
        exact ⟨m1, by rw [m2, k2, e8 a hao]⟩
    · rw [if_neg hn]
      have hn' : isPtr n = false := by simpa using hn
      obtain ⟨g', p', r, R⟩ := ih hnd.2 g p h hp
        (fun k hk => hA k (List.mem_cons_of_mem _ hk))
        (fun k hk => hb k (List.mem_cons_of_mem _ hk))
      refine ⟨g', p', r, R.wf, R.ptrs, R.attr, R.struct, R.returnResidual, R.dirty, ?_, ?_, ?_⟩
      · intro k hk
        exact R.other k (hk.imp (fun h hc => h (List.mem_cons_of_mem _ hc)) id)
      · intro k hk hk2
        rcases List.mem_cons.mp hk with rfl | hk
        · rw [hn'] at hk2; cases hk2
        · exact R.new k hk hk2
      · intro a ha hna
        exact R.keep a ha fun j hj => hna j (List.mem_cons_of_mem _ hj)

lemma upload_ok (A : Name → Arr) (L : List Name) : L.Nodup → ∀ (g : Gpu) (p : Name → Option Nat),
    WF g → g.ptrs = some p → g.attr Name.residual = none →
    (∀ n ∈ L, n ≠ Name.residual → g.attr n = some (A n)) →
    ∃ g' p', Gpu.upload L g = (none, g') ∧
      Renewed g g' p p' (L.filter (· ≠ Name.residual)) A := by
  induction L with
  | nil =>
    intro _ g p h hp _ _
    exact ⟨g, p, rfl, h, hp, rfl, rfl, rfl, rfl, fun _ _ => rfl, by simp, fun a ha _ => ⟨ha, rfl⟩⟩
  | cons n rest ih =>
    intro hnd g p h hp hres hA
    rw [List.nodup_cons] at hnd
    unfold Gpu.upload
    by_cases hnr : n = Name.residual
    · rw [hnr, hres]
      simp only [if_true]
      obtain ⟨g', p', r, R⟩ := ih hnd.2 g p h hp hres (fun k hk => hA k (List.mem_cons_of_mem _ hk))
      refine ⟨g', p', r, ?_⟩
      simpa using R
    · have hA' : g.attr n = some (A n) := hA n List.mem_cons_self hnr
      rw [hA']
      simp only
      have hfil : (n :: rest).filter (· ≠ Name.residual) = n :: rest.filter (· ≠ Name.residual) := by
        simp [hnr]
      rw [hfil]
      by_cases hn : isPtr n = true
      · rw [if_pos hn]
        have hw2 := wf_allocBind g _ n (.arr (A n)) h (fun k hk => hk.elim) p hp
        obtain ⟨f1, f2, f3, f4, f5, f6, f7⟩ := allocBind_facts g p hp (h.ptr_lt p hp) n (A n)
        set g2 := (g.alloc (.arr (A n))).bind n g.next with hg2
        obtain ⟨g', p', r, R⟩ := ih hnd.2 g2 _ hw2 f1 (by rw [f2]; exact hres)
          (fun k hk hk2 => by rw [f2]; exact hA k (List.mem_cons_of_mem _ hk) hk2)
        have hnin : n ∉ rest.filter (· ≠ Name.residual) := fun hc => hnd.1 (List.mem_filter.mp hc).1
        refine ⟨g', p', r, R.wf, R.ptrs, ?_, ?_, ?_, ?_, ?_, ?_, ?_⟩
        · rw [R.attr, f2]
        · rw [R.struct, f3]
        · rw [R.returnResidual, f4]
        · rw [R.dirty, f5]
        · intro k hk
          have hkn : k ≠ n := by
            rintro rfl
            rcases hk with hk | hk
            · exact hk List.mem_cons_self
            · rw [hn] at hk; cases hk
          rw [R.other k (hk.imp (fun h hc => h (List.mem_cons_of_mem _ hc)) id),
            Function.update_of_ne hkn]
        · intro k hk hk2
          rcases List.mem_cons.mp hk with rfl | hk
          · refine ⟨g.next, ?_, ?_⟩
            · rw [R.other k (Or.inl hnin), Function.update_self]
            · have hlive : g2.Live g.next := by
                have := f6
                unfold Gpu.read at this
                by_contra hc
                rw [if_neg hc] at this
                cases this
              obtain ⟨k1, k2⟩ := R.keep g.next hlive (by
                intro j hj hj2 hc
                have hjn : j ≠ k := fun hc => hnin (hc ▸ hj)
                rw [Function.update_of_ne hjn] at hc
                have := h.ptr_lt p hp j _ hc
                omega)
              rw [read_congr g2 g' _ hlive k1 k2]
              exact f6
          · exact R.new k hk hk2
        · intro a ha hna
          have hpa : p n ≠ some a := hna n List.mem_cons_self hn
          obtain ⟨k1, k2⟩ := f7 a ha hpa
          obtain ⟨m1, m2⟩ := R.keep a k1 (by
            intro j hj hj2 hc
            have hjn : j ≠ n := fun hc => hnin (hc ▸ hj)
            rw [Function.update_of_ne hjn] at hc
            exact hna j (List.mem_cons_of_mem _ hj) hj2 hc)
          exact ⟨m1, by rw [m2, k2]⟩
      · rw [if_neg hn]
        have hn' : isPtr n = false := by simpa using hn
        obtain ⟨g', p', r, R⟩ := ih hnd.2 g p h hp hres
          (fun k hk => hA k (List.mem_cons_of_mem _ hk))
        refine ⟨g', p', r, R.wf, R.ptrs, R.attr, R.struct, R.returnResidual, R.dirty, ?_, ?_, ?_⟩
        · intro k hk
          exact R.other k (hk.imp (fun h hc => h (List.mem_cons_of_mem _ hc)) id)
        · intro k hk hk2
          rcases List.mem_cons.mp hk with rfl | hk
          · rw [hn'] at hk2; cases hk2
          · exact R.new k hk hk2
        · intro a ha hna
          exact R.keep a ha fun j hj => hna j (List.mem_cons_of_mem _ hj)

/-- The structure on the device mirrors the dictionary. -/
lemma sendStruct_ok (g : Gpu) (p : Name → Option Nat) (h : WF g) (hp : g.ptrs = some p)
    (ns nr : Arr) (h1 : g.attr Name.n_sources = some ns) (h2 : g.attr Name.n_radii = some nr) :
    ∃ g' s v, g.sendStruct = (none, g') ∧ WF g' ∧ g'.ptrs = some p ∧ g'.attr = g.attr ∧
      g'.returnResidual = g.returnResidual ∧ g'.dirty = g.dirty ∧ g'.struct = some s ∧
      (g'.cell s).val = .struct (fun n => if isPtr n then p n else none) v ∧
      v Name.n_sources = ns ∧ v Name.n_radii = nr ∧
      ∀ a, (∃ n, p n = some a) → g'.Live a ∧ g'.cell a = g.cell a := by
  have hsafe := sendStruct_safe g h
  unfold Gpu.sendStruct at hsafe ⊢
  rw [hp] at hsafe ⊢
  simp only at hsafe ⊢
  rw [if_neg (by simp [h1, h2])] at hsafe ⊢
  set v : Name → Arr := fun n => if isPtr n then fun _ => 0 else (g.attr n).getD fun _ => 0 with hv
  have hv1 : v Name.n_sources = ns := by simp [hv, isPtr, h1]
  have hv2 : v Name.n_radii = nr := by simp [hv, isPtr, h2]
  cases hs : g.struct with
  | none =>
    simp only [hs] at hsafe
    refine ⟨_, g.next, v, rfl, hsafe.2, hp, rfl, rfl, rfl, rfl, ?_, hv1, hv2, ?_⟩
    · show (Function.update g.cell g.next _ g.next).val = _
      rw [Function.update_self]
    · rintro a ⟨n, hn⟩
      have hl := h.live hp hn
      exact ⟨(live_alloc g _ a).mpr (Or.inl hl), alloc_cell_of_live g _ a hl⟩
  | some s =>
    obtain ⟨g1, hg1⟩ := freeCell_ok g s (h.struct_live s hs)
    simp only [hs, hg1] at hsafe ⊢
    obtain ⟨hl, e1, e2, e3, e4, e5, e6, e7, e8, e9, e10⟩ := live_free g g1 s hg1
    refine ⟨_, g1.next, v, rfl, hsafe.2, e1.trans hp, e4, e5, e6, rfl, ?_, hv1, hv2, ?_⟩
    · show (Function.update g1.cell g1.next _ g1.next).val = _
      rw [Function.update_self]
    · rintro a ⟨n, hn⟩
      have hla := h.live hp hn
      have hne : a ≠ s := by
        rintro rfl
        exact h.struct_sep _ p hs hp n hn
      have hl1 : g1.Live a := (e7 a).mpr ⟨hla, hne⟩
      refine ⟨(live_alloc g1 _ a).mpr (Or.inl hl1), ?_⟩
      show (g1.alloc _).cell a = _
      rw [alloc_cell_of_live g1 _ a hl1, e8 a hne]

/-! ## The state between two blocks -/

section
variable {S : Type} (ops : Ops S)

/-- What the kernel should find in the array `n`, apart from the data. -/
def wanted (pix : Name → Arr) (sc : List S) (n : Name) : Arr :=
  if n ∈ metaNames then ops.packed sc n else pix n

/-- The image of a scene: what the kernel forms from the pixel arrays, the packed metadata and the
proposal of the scene. -/
def image (pix : Name → Arr) (sc : List S) : Arr :=
  ops.model (fun n => if n = Name.data ∨ n = Name.residual then fun _ => 0 else wanted ops pix sc n)
    (ops.proposal sc)

/-- The device is ready to evaluate the scene `sc` against the data `d`. -/
structure Ready (pix : Name → Arr) (sc : List S) (d : Arr) (g : Gpu) : Prop where
  wf : WF g
  hptrs : ∃ p, g.ptrs = some p ∧
    (∃ r, p Name.residual = some r) ∧
    (∃ a, p Name.data = some a ∧ g.read a = some d) ∧
    (∀ n, isPtr n = true → n ≠ Name.data → n ≠ Name.residual →
      ∃ a, p n = some a ∧ g.read a = some (wanted ops pix sc n)) ∧
    ∃ s v, g.struct = some s ∧ (g.cell s).val = .struct (fun n => if isPtr n then p n else none) v ∧
      v Name.n_sources = ops.packed sc Name.n_sources ∧ v Name.n_radii = ops.packed sc Name.n_radii
  attrPix : ∀ n, n ∉ metaNames → n ≠ Name.residual → g.attr n = some (pix n)
  attrMeta : ∀ n ∈ metaNames, g.attr n = some (ops.packed sc n)

lemma read_live (g : Gpu) (a : Nat) (x : Arr) (h : g.read a = some x) : g.Live a := by
  unfold Gpu.read at h
  by_contra hc
  rw [if_neg hc] at h
  cases h

/-- A kernel call on a ready device writes data minus image into the residual and changes nothing
else. -/
lemma evaluate_ready (pix : Name → Arr) (sc : List S) (d : Arr) (g : Gpu)
    (h : Ready ops pix sc d g) :
    ∃ g', g.evaluate ops (ops.proposal sc) = (none, g') ∧ Ready ops pix sc d g' ∧
      g'.dirty = g.dirty ∧
      ∃ p r, g'.ptrs = some p ∧ p Name.residual = some r ∧
        g'.read r = some (d - image ops pix sc) := by
  obtain ⟨wf, ⟨p, hp, ⟨r, hr⟩, ⟨ad, had, hrd⟩, hoth, s, v, hs, hsv, hv1, hv2⟩, hap, ham⟩ := h
  have hls := wf.struct_live s hs
  have hlr : g.Live r := wf.live hp hr
  have hderef : ∀ n, n ≠ Name.data → n ≠ Name.residual →
      g.deref (fun n => if isPtr n then p n else none) v n = some (wanted ops pix sc n) := by
    intro n hd hres
    unfold Gpu.deref
    by_cases hn : isPtr n = true
    · rw [if_pos hn]
      beta_reduce
      rw [if_pos hn]
      obtain ⟨a, ha, hra⟩ := hoth n hn hd hres
      rw [ha]; exact hra
    · rw [if_neg hn]
      have : n = Name.n_sources ∨ n = Name.n_radii := by
        cases n <;> simp [isPtr] at hn <;> simp
      rcases this with rfl | rfl
      · rw [hv1]; rfl
      · rw [hv2]; rfl
  have hdata : g.deref (fun n => if isPtr n then p n else none) v Name.data = some d := by
    unfold Gpu.deref
    simp only [isPtr, if_true]
    rw [had]; exact hrd
  have henv : (fun n => if n = Name.data ∨ n = Name.residual then (fun _ => 0 : Arr)
      else (g.deref (fun n => if isPtr n then p n else none) v n).getD fun _ => 0) =
      fun n => if n = Name.data ∨ n = Name.residual then fun _ => 0 else wanted ops pix sc n := by
    funext n
    by_cases hn : n = Name.data ∨ n = Name.residual
    · rw [if_pos hn, if_pos hn]
    · rw [if_neg hn, if_neg hn]
      push Not at hn
      rw [hderef n hn.1 hn.2]; rfl
  have hev : g.evaluate ops (ops.proposal sc) =
      (none, g.write r (.arr (d - image ops pix sc))) := by
    unfold Gpu.evaluate
    rw [hs]
    simp only
    rw [if_neg (by simpa using hls), hsv]
    simp only
    rw [if_neg ?_]
    · rw [henv, hdata]
      simp only [isPtr, if_true, hr, Option.getD_some]
      rw [if_pos hlr]
      rfl
    · simp only [List.any_eq_true, List.mem_filter, not_exists, not_and]
      rintro n ⟨_, hn⟩
      have hn' : n ≠ Name.residual := by simpa using hn
      by_cases hd : n = Name.data
      · rw [hd, hdata]; simp
      · rw [hderef n hd hn']; simp
  have hcell : ∀ b, b ≠ r → (g.write r (.arr (d - image ops pix sc))).cell b = g.cell b :=
    fun b hb => Function.update_of_ne hb _ _
  have hwf := wf_write g r (.arr (d - image ops pix sc)) wf
  have hlive : ∀ b, (g.write r (.arr (d - image ops pix sc))).Live b ↔ g.Live b := by
    intro b
    unfold Gpu.Live
    by_cases hb : b = r
    · subst hb
      unfold Gpu.write
      simp
    · rw [hcell b hb]; rfl
  have hread : ∀ b x, b ≠ r → g.read b = some x →
      (g.write r (.arr (d - image ops pix sc))).read b = some x := by
    intro b x hb hx
    rw [read_congr g _ b (read_live g b x hx) ((hlive b).mpr (read_live g b x hx)) (hcell b hb)]
    exact hx
  refine ⟨_, hev, ⟨hwf, ⟨p, hp, ⟨r, hr⟩, ⟨ad, had, ?_⟩, ?_, s, v, hs, ?_, hv1, hv2⟩, hap, ham⟩, rfl,
    p, r, hp, hr, ?_⟩
  · apply hread _ _ _ hrd
    rintro rfl
    have := wf.ptr_inj p hp _ _ _ had hr
    cases this
  · intro n hn hd hres
    obtain ⟨a, ha, hra⟩ := hoth n hn hd hres
    refine ⟨a, ha, hread _ _ ?_ hra⟩
    rintro rfl
    exact hres (wf.ptr_inj p hp _ _ _ ha hr)
  · rw [hcell s ?_]
    · exact hsv
    · rintro rfl
      exact wf.struct_sep _ p hs hp _ hr
  · unfold Gpu.read
    rw [if_pos ((hlive r).mpr hlr)]
    unfold Gpu.write
    simp

lemma metaNames_nodup : metaNames.Nodup := by decide

/-- Packing the next scene and swapping: the residual becomes the data, the metadata those of the
next scene. -/
lemma swap_ready (pix : Name → Arr) (sc sc' : List S) (d d' : Arr) (g : Gpu) (hne : sc' ≠ [])
    (h : Ready ops pix sc d g) (p : Name → Option Nat) (hp : g.ptrs = some p) (r : Nat)
    (hr : p Name.residual = some r) (hd' : g.read r = some d') :
    ∃ g2 g3, g.packMeta ops sc' = (none, g2) ∧ g2.swap = (none, g3) ∧ Ready ops pix sc' d' g3 ∧
      g3.dirty = true := by
  obtain ⟨wf, ⟨p0, hp0, _, ⟨ad, had, hrd⟩, hoth, s, v, hs, hsv, hv1, hv2⟩, hap, ham⟩ := h
  rw [hp] at hp0
  obtain rfl := Option.some.inj hp0
  set g2 : Gpu := { g with attr := fun n => if n ∈ metaNames then some (ops.packed sc' n) else g.attr n }
    with hg2
  have hpk : g.packMeta ops sc' = (none, g2) := by unfold Gpu.packMeta; rw [if_neg hne]
  have wf2 : WF g2 := wf_attr g _ wf
  obtain ⟨g3, p3, hrm, R⟩ := replaceMeta_ok (fun n => ops.packed sc' n) metaNames metaNames_nodup g2 p
    wf2 hp (fun n hn => by show (if n ∈ metaNames then _ else _) = _; rw [if_pos hn])
    (fun n hn hn2 => by
      obtain ⟨a, ha, _⟩ := hoth n hn2 (by rintro rfl; revert hn; decide)
        (by rintro rfl; revert hn; decide)
      exact ⟨a, ha⟩)
  set g4 : Gpu := { g3 with ptrs := g3.ptrs.map swapPtrs } with hg4
  have wf4 : WF g4 := wf_swapPtrs g3 R.wf
  have hp4 : g4.ptrs = some (swapPtrs p3) := by
    show g3.ptrs.map swapPtrs = _
    rw [R.ptrs]; rfl
  have hattr : g4.attr = g2.attr := R.attr
  obtain ⟨g5, s5, v5, q1, q2, q3, q4, q5, q6, q7, q8, q9, q10, q11⟩ := sendStruct_ok g4 (swapPtrs p3)
    wf4 hp4 (ops.packed sc' Name.n_sources) (ops.packed sc' Name.n_radii)
    (by rw [hattr]; rfl) (by rw [hattr]; rfl)
  have hswap : g2.swap = (none, { g5 with dirty := true }) := by
    unfold Gpu.swap
    rw [show g2.ptrs = some p from hp]
    simp only
    rw [if_neg (by simp [hr]), hrm]
    simp only
    rw [← hg4, q1]
  have hnotmeta : ∀ n a, n ∉ metaNames → p n = some a →
      g4.Live a ∧ g4.cell a = g.cell a ∧ p3 n = some a := by
    intro n a hn ha
    have hl : g2.Live a := wf2.live hp ha
    obtain ⟨k1, k2⟩ := R.keep a hl (by
      intro j hj _ hc
      exact hn (wf.ptr_inj p hp n j a ha hc ▸ hj))
    exact ⟨k1, k2, by rw [R.other n (Or.inl hn)]; exact ha⟩
  have hread5 : ∀ a x, (∃ n, swapPtrs p3 n = some a) → g4.read a = some x →
      Gpu.read { g5 with dirty := true } a = some x := by
    intro a x hn hx
    obtain ⟨k1, k2⟩ := q11 a hn
    have hl4 := read_live g4 a x hx
    have : g5.read a = g4.read a := read_congr g4 g5 a hl4 k1 k2
    show g5.read a = _
    rw [this]; exact hx
  refine ⟨g2, _, hpk, hswap, ⟨wf_dirty _ _ q2, ⟨swapPtrs p3, q3, ?_, ?_, ?_, s5, v5, q7, q8, q9, q10⟩,
    ?_, ?_⟩, rfl⟩
  · obtain ⟨_, _, k⟩ := hnotmeta Name.data ad (by decide) had
    exact ⟨ad, by simp [swapPtrs, k]⟩
  · obtain ⟨k1, k2, k⟩ := hnotmeta Name.residual r (by decide) hr
    refine ⟨r, by simp [swapPtrs, k], hread5 r d' ⟨Name.data, by simp [swapPtrs, k]⟩ ?_⟩
    rw [read_congr g g4 r (read_live g r d' hd') k1 k2]
    exact hd'
  · intro n hn hnd hnr
    have hsw : swapPtrs p3 n = p3 n := by simp [swapPtrs, hnd, hnr]
    by_cases hm : n ∈ metaNames
    · obtain ⟨a, ha, hra⟩ := R.new n hm hn
      refine ⟨a, hsw.trans ha, hread5 a _ ⟨n, hsw.trans ha⟩ ?_⟩
      unfold wanted
      rw [if_pos hm]
      exact hra
    · obtain ⟨a, ha, hra⟩ := hoth n hn hnd hnr
      obtain ⟨k1, k2, k⟩ := hnotmeta n a hm ha
      refine ⟨a, hsw.trans k, hread5 a _ ⟨n, hsw.trans k⟩ ?_⟩
      rw [read_congr g g4 a (read_live g a _ hra) k1 k2, hra]
      unfold wanted
      rw [if_neg hm, if_neg hm]
  · intro n hn hnr
    show g5.attr n = _
    rw [q4, hattr]
    show (if n ∈ metaNames then _ else _) = _
    rw [if_neg hn]
    exact hap n hn hnr
  · intro n hn
    show g5.attr n = _
    rw [q4, hattr]
    show (if n ∈ metaNames then _ else _) = _
    rw [if_pos hn]

lemma subtractLoop_ready (pix : Name → Arr) (rest : List (List S)) : ∀ (prev : List S) (d : Arr)
    (g : Gpu), (∀ b ∈ rest, b ≠ []) → Ready ops pix prev d g →
    ∃ g', Gpu.subtractLoop ops prev rest g = (none, g') ∧
      Ready ops pix ((prev :: rest).getLast (by simp))
        (d - (((prev :: rest).dropLast).map (image ops pix)).sum) g' ∧
      (g'.dirty = if rest = [] then g.dirty else true) := by
  induction rest with
  | nil =>
    intro prev d g _ h
    refine ⟨g, rfl, ?_, by simp⟩
    simpa using h
  | cons sc rest ih =>
    intro prev d g hb h
    obtain ⟨g1, e1, e2, e3, p, r, e4, e5, e6⟩ := evaluate_ready ops pix prev d g h
    obtain ⟨g2, g3, f1, f2, f3, f4⟩ := swap_ready ops pix prev sc d _ g1 (hb sc List.mem_cons_self) e2 p
      e4 r e5 e6
    obtain ⟨g', q1, q2, q3⟩ := ih sc _ g3 (fun b h => hb b (List.mem_cons_of_mem _ h)) f3
    refine ⟨g', ?_, ?_, ?_⟩
    · unfold Gpu.subtractLoop
      rw [e1]; simp only
      rw [f1]; simp only
      rw [f2]; exact q1
    · have hl : (prev :: sc :: rest).getLast (by simp) = (sc :: rest).getLast (by simp) :=
        List.getLast_cons (by simp)
      rw [hl]
      have hd : (prev :: sc :: rest).dropLast = prev :: (sc :: rest).dropLast := rfl
      rw [hd, List.map_cons, List.sum_cons, ← sub_sub]
      exact q2
    · rw [q3, f4]
      simp

/-- The host side is packed: pixel arrays `pix`, nothing called `residual`. -/
structure Packed (pix : Name → Arr) (g : Gpu) : Prop where
  wf : WF g
  attrPix : ∀ n, n ∉ metaNames → n ≠ Name.residual → g.attr n = some (pix n)
  noRes : g.attr Name.residual = none
  clean : g.dirty = false

/-- Packing the first scene and sending everything. -/
lemma send_ready (pix : Name → Arr) (sc : List S) (junk : Arr) (g : Gpu) (hne : sc ≠ [])
    (h : Packed pix g) :
    ∃ g1 g2, Gpu.packMeta ops sc { g with returnResidual := true } = (none, g1) ∧
      g1.send junk = (none, g2) ∧ Ready ops pix sc (pix Name.data) g2 ∧ g2.dirty = false := by
  set g1 : Gpu := { g with
    returnResidual := true
    attr := fun n => if n ∈ metaNames then some (ops.packed sc n) else g.attr n } with hg1
  have hpk : Gpu.packMeta ops sc { g with returnResidual := true } = (none, g1) := by
    unfold Gpu.packMeta; rw [if_neg hne]
  have wf1 : WF g1 := by
    have := h.wf
    exact ⟨this.ptr_live, this.ptr_lt, this.ptr_inj, this.struct_live, this.struct_sep, this.held,
      this.once⟩
  have hra : g1.resetPtrs.attr = g1.attr := by
    unfold Gpu.resetPtrs; cases g1.ptrs <;> rfl
  have hrr : g1.resetPtrs.returnResidual = true := by
    unfold Gpu.resetPtrs; cases g1.ptrs <;> rfl
  have hattr1 : ∀ n, n ≠ Name.residual → g1.attr n = some (wanted ops pix sc n) := by
    intro n hn
    show (if n ∈ metaNames then _ else _) = _
    unfold wanted
    by_cases hm : n ∈ metaNames
    · rw [if_pos hm, if_pos hm]
    · rw [if_neg hm, if_neg hm]; exact h.attrPix n hm hn
  obtain ⟨g3, p3, hu, R⟩ := upload_ok (wanted ops pix sc) names names_nodup g1.resetPtrs _
    (wf_reset g1 wf1) (reset_ptrs g1)
    (by rw [hra]; exact h.noRes)
    (fun n _ hn => by rw [hra]; exact hattr1 n hn)
  have hrr3 : g3.returnResidual = true := by rw [R.returnResidual]; exact hrr
  have hattr3 : g3.attr = g1.attr := by rw [R.attr, hra]
  obtain ⟨f1, f2, f3, f4, f5, f6, f7⟩ := allocBind_facts g3 p3 R.ptrs (R.wf.ptr_lt p3 R.ptrs)
    Name.residual junk
  have wf4 := wf_allocBind g3 _ Name.residual (.arr junk) R.wf (fun k hk => hk.elim) p3 R.ptrs
  set g4 := (g3.alloc (.arr junk)).bind Name.residual g3.next with hg4
  obtain ⟨g5, s5, v5, q1, q2, q3, q4, q5, q6, q7, q8, q9, q10, q11⟩ := sendStruct_ok g4 _ wf4 f1
    (ops.packed sc Name.n_sources) (ops.packed sc Name.n_radii)
    (by rw [f2, hattr3]; rfl) (by rw [f2, hattr3]; rfl)
  have hsend : g1.send junk = (none, { g5 with dirty := false }) := by
    unfold Gpu.send
    rw [hu]
    simp only [hrr3, if_true]
    rw [← hg4, q1]
  have hres3 : p3 Name.residual = none := R.other Name.residual (Or.inl (by decide))
  have hread : ∀ n, isPtr n = true → n ≠ Name.residual →
      ∃ a, Function.update p3 Name.residual (some g3.next) n = some a ∧
        Gpu.read { g5 with dirty := false } a = some (wanted ops pix sc n) := by
    intro n hn hnr
    obtain ⟨a, ha, hra⟩ := R.new n (List.mem_filter.mpr ⟨mem_names n, by simpa using hnr⟩) hn
    have hl3 := read_live g3 a _ hra
    obtain ⟨k1, k2⟩ := f7 a hl3 (by rw [hres3]; simp)
    have hup : Function.update p3 Name.residual (some g3.next) n = some a := by
      rw [Function.update_of_ne hnr]; exact ha
    obtain ⟨m1, m2⟩ := q11 a ⟨n, hup⟩
    refine ⟨a, hup, ?_⟩
    show g5.read a = _
    rw [read_congr g4 g5 a k1 m1 m2, read_congr g3 g4 a hl3 k1 k2]
    exact hra
  refine ⟨g1, _, hpk, hsend, ⟨wf_dirty _ _ q2, ⟨_, q3, ⟨g3.next, Function.update_self ..⟩, ?_, ?_,
    s5, v5, q7, q8, q9, q10⟩, ?_, ?_⟩, rfl⟩
  · have := hread Name.data rfl (by decide)
    have hw : wanted ops pix sc Name.data = pix Name.data := by
      unfold wanted; rw [if_neg (by decide)]
    rwa [hw] at this
  · intro n hn _ hnr
    exact hread n hn hnr
  · intro n hm hnr
    show g5.attr n = _
    rw [q4, f2, hattr3, hattr1 n hnr]
    unfold wanted; rw [if_neg hm]
  · intro n hm
    show g5.attr n = _
    rw [q4, f2, hattr3, hattr1 n (by rintro rfl; revert hm; decide)]
    unfold wanted; rw [if_pos hm]

lemma optBlocks_ok (m : Nat) (hm : 0 < m) (o : Option (List S)) (ho : o ≠ some []) :
    ∃ bs, optBlocks m o = .ok bs ∧ bs.flatten = o.getD [] ∧ ∀ b ∈ bs, b ≠ [] ∧ b.length ≤ m := by
  cases o with
  | none => exact ⟨[], rfl, rfl, by simp⟩
  | some c =>
    obtain ⟨bs, h1, h2, h3⟩ := blocks_ok m hm c
    exact ⟨bs, h1, h2, h3 (fun hc => ho (by rw [hc]))⟩

/-- `subtract_fixed` leaves the device ready to evaluate the active scene. -/
lemma gpu_subtract (pix : Name → Arr) (junk : Arr) (m : Nat) (hm : 0 < m) (swapLocal : Bool)
    (fixed big : Option (List S)) (active : List S) (hf : fixed ≠ some []) (hb : big ≠ some [])
    (ha : active ≠ []) (g : Gpu) (h : Packed pix g) :
    ∃ (g' : Gpu) (bs : List (List S)), g.subtractFixed ops junk m swapLocal fixed (some active) big = (.ok active, g') ∧
      bs.flatten = big.getD [] ++ fixed.getD [] ∧ (∀ b ∈ bs, b ≠ [] ∧ b.length ≤ m) ∧
      Ready ops pix active (pix Name.data - (bs.map (image ops pix)).sum) g' := by
  obtain ⟨bb, b1, b2, b3⟩ := optBlocks_ok m hm big hb
  obtain ⟨fb, f1, f2, f3⟩ := optBlocks_ok m hm fixed hf
  have hsc : scenes m swapLocal fixed (some active) big = .ok (bb ++ fb ++ [active]) := by
    unfold scenes; rw [b1, f1]
  have hall : ∀ b ∈ bb ++ fb, b ≠ [] ∧ b.length ≤ m := by
    intro b hb
    rcases List.mem_append.mp hb with hb | hb
    · exact b3 b hb
    · exact f3 b hb
  obtain ⟨first, rest, hfr⟩ : ∃ first rest, bb ++ fb ++ [active] = first :: rest := by
    cases hh : bb ++ fb ++ [active] with
    | nil => simp at hh
    | cons x xs => exact ⟨x, xs, rfl⟩
  have hne : ∀ b ∈ first :: rest, b ≠ [] := by
    intro b hb
    rw [← hfr] at hb
    rcases List.mem_append.mp hb with hb | hb
    · exact (hall b hb).1
    · rw [List.mem_singleton.mp hb]; exact ha
  obtain ⟨g1, g2, s1, s2, s3, s4⟩ := send_ready ops pix first junk g (hne first List.mem_cons_self) h
  obtain ⟨g3, l1, l2, l3⟩ := subtractLoop_ready ops pix rest first (pix Name.data) g2
    (fun b hb => hne b (List.mem_cons_of_mem _ hb)) s3
  have hlast : (first :: rest).getLast (by simp) = active := by
    have : ∀ (l : List (List S)) (hl : l ≠ []), l = bb ++ fb ++ [active] → l.getLast hl = active := by
      rintro l hl rfl
      simp
    exact this _ _ hfr.symm
  have hdrop : (first :: rest).dropLast = bb ++ fb := by
    rw [← hfr]; simp
  rw [hlast, hdrop] at l2
  refine ⟨g3, bb ++ fb, ?_, ?_, hall, l2⟩
  · unfold Gpu.subtractFixed
    rw [hsc]
    simp only [hfr]
    rw [if_neg (by simp [h.clean]), s1]
    simp only
    rw [s2]; simp only
    rw [l1]; simp only
    rw [hlast]
  · rw [List.flatten_append, b2, f2]

/-- What a ready device returns as data. -/
lemma ready_retrieve (pix : Name → Arr) (sc : List S) (d : Arr) (g : Gpu) (h : Ready ops pix sc d g) :
    g.retrieve Name.data = .ok d := by
  obtain ⟨p, hp, _, ⟨a, ha1, ha2⟩, _⟩ := h.hptrs
  unfold Gpu.retrieve
  rw [hp]; simp only
  rw [ha1]; simp only
  rw [ha2]

/-- C47 on a GPU. Take a patch whose pixels are packed and whose device data are not dirty, any big
and fixed catalogs (absent or not empty), a positive block size and an active catalog that is not
empty. Then `subtract_fixed` succeeds; what can be retrieved as data is the original data minus the
images of the blocks, the blocks being consecutive pieces of at most `maxactive` sources that make
up the big and then the fixed catalog; and the device and the result describe the active scene, so
that evaluating a proposal for it leaves those data minus its image in the residual. -/
theorem C47_gpu (pix : Name → Arr) (junk : Arr) (m : Nat) (hm : 0 < m) (swapLocal : Bool)
    (fixed big : Option (List S)) (active : List S) (hf : fixed ≠ some []) (hb : big ≠ some [])
    (ha : active ≠ []) (g : Gpu) (h : Packed pix g) :
    ∃ (g' : Gpu) (bs : List (List S)), g.subtractFixed ops junk m swapLocal fixed (some active) big = (.ok active, g') ∧
      bs.flatten = big.getD [] ++ fixed.getD [] ∧ (∀ b ∈ bs, b ≠ [] ∧ b.length ≤ m) ∧
      g'.retrieve Name.data = .ok (pix Name.data - (bs.map (image ops pix)).sum) ∧
      g'.attr Name.data = some (pix Name.data) ∧
      ∃ g'', g'.evaluate ops (ops.proposal active) = (none, g'') ∧
        g''.retrieve Name.residual =
          .ok (pix Name.data - (bs.map (image ops pix)).sum - image ops pix active) := by
  obtain ⟨g3, bs, h1, h2, h3, l2⟩ := gpu_subtract ops pix junk m hm swapLocal fixed big active hf hb ha g h
  obtain ⟨g4, e1, e2, e3, p, r, e4, e5, e6⟩ := evaluate_ready ops pix active _ g3 l2
  refine ⟨g3, bs, h1, h2, h3, ready_retrieve ops pix active _ g3 l2,
    l2.attrPix Name.data (by decide) (by decide), g4, e1, ?_⟩
  unfold Gpu.retrieve
  rw [e4]; simp only
  rw [e5]; simp only
  rw [e6]

/-- C47, images. The image of a scene depends on the scene through its proposal, its counts and its packed arrays alone, and on the patch
through the uncertainties, the pixel coordinates and the bounds of exposures and bands alone. -/
theorem C47_image (pix : Name → Arr) (sc : List S) :
    image ops pix sc = ops.model (fun n => match n with
      | .data | .residual => fun _ => 0
      | .ierr | .xpix | .ypix | .exposure_start | .exposure_N | .band_start | .band_N => pix n
      | .n_sources | .n_radii | .rad2 | .D | .crpix | .crval | .CW | .G | .n_psf_per_source | .psfgauss | .psfgauss_start =>
        ops.packed sc n) (ops.proposal sc) := by
  unfold image
  congr 1
  funext n
  cases n <;> simp [wanted, metaNames]

end

/-- C47, reading back. An array comes back from the GPU exactly if there is a buffer for it that is allocated, not freed and not reclaimed, with what the
buffer holds; before anything is sent there is no table of buffers, and a name that was not sent is not in it. On the CPU the attribute comes back. -/
theorem C47_retrieve (g : Gpu) (c : Cpu) (n : Name) :
    (∀ x, g.retrieve n = .ok x ↔ ∃ p a, g.ptrs = some p ∧ p n = some a ∧ a < g.next ∧ (g.cell a).frees = 0 ∧ (g.cell a).reclaimed = false ∧
      (g.cell a).val = .arr x) ∧
    (g.retrieve n = .error .attributeError ↔ g.ptrs = none) ∧
    (g.retrieve n = .error .keyError ↔ ∃ p, g.ptrs = some p ∧ p n = none) ∧
    (∀ x, c.retrieve n = .ok x ↔ ∃ a, c.attr n = some a ∧ c.mem a = x) ∧
    (c.retrieve n = .error .attributeError ↔ c.attr n = none) := by
  refine ⟨fun x => ?_, ?_, ?_, fun x => ?_, ?_⟩
  · unfold Gpu.retrieve
    cases hp : g.ptrs with
    | none => simp
    | some p =>
      cases ha : p n with
      | none => simp [ha]
      | some a =>
        by_cases hl : g.Live a
        · have hl' := hl
          obtain ⟨h1, h2, h3⟩ := hl'
          cases hv : (g.cell a).val <;> simp [Gpu.read, hl, ha, hv, h1, h2, h3]
        · simp only [Gpu.read, if_neg hl, ha]
          simp only [reduceCtorEq, Option.some.injEq, false_iff]
          rintro ⟨q, b, rfl, hb, h1, h2, h3, _⟩
          obtain rfl : a = b := Option.some.inj (ha.symm.trans hb)
          exact hl ⟨h1, h2, h3⟩
  · unfold Gpu.retrieve
    cases g.ptrs with
    | none => simp
    | some p =>
      cases ha : p n with
      | none => simp [ha]
      | some a => cases hr : g.read a <;> simp [ha, hr]
  · unfold Gpu.retrieve
    cases g.ptrs with
    | none => simp
    | some p =>
      cases ha : p n with
      | none => simp [ha]
      | some a => cases hr : g.read a <;> simp [ha, hr]
  · unfold Cpu.retrieve
    cases c.attr n <;> simp
  · unfold Cpu.retrieve
    cases c.attr n <;> simp

end Forcepho.Device
