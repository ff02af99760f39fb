import Verif.Device.Model
import Mathlib.Tactic.Linarith
import Mathlib.Data.List.Nodup

/-!
# C48: device memory is neither leaked nor freed twice
-/

set_option autoImplicit false
set_option linter.unusedSectionVars false

namespace Forcepho.Device

open Name

lemma mem_names (n : Name) : n ∈ names := by cases n <;> decide

/-! ## The invariant -/

/-- Every pointer held is live except possibly the entry `x`; no two holders share a buffer; every
live buffer is held; no buffer has been released twice. -/
structure WFx (g : Gpu) (x : Name → Prop) : Prop where
  ptr_live : ∀ p, g.ptrs = some p → ∀ n a, p n = some a → x n ∨ g.Live a
  ptr_lt : ∀ p, g.ptrs = some p → ∀ n a, p n = some a → a < g.next
  ptr_inj : ∀ p, g.ptrs = some p → ∀ n k a, p n = some a → p k = some a → n = k
  struct_live : ∀ s, g.struct = some s → g.Live s
  struct_sep : ∀ s p, g.struct = some s → g.ptrs = some p → ∀ n, p n ≠ some s
  held : ∀ a, g.Live a → g.struct = some a ∨ ∃ p n, g.ptrs = some p ∧ p n = some a
  once : ∀ a, a < g.next → (g.cell a).frees + (g.cell a).reclaimed.toNat ≤ 1

/-- The invariant between operations. -/
def WF (g : Gpu) : Prop := WFx g fun _ => False

lemma WF.live {g : Gpu} (h : WF g) {p : Name → Option Nat} (hp : g.ptrs = some p) {n : Name}
    {a : Nat} (ha : p n = some a) : g.Live a :=
  (h.ptr_live p hp n a ha).resolve_left (fun h => h)

lemma live_alloc (g : Gpu) (v : Val) (a : Nat) :
    (g.alloc v).Live a ↔ g.Live a ∨ a = g.next := by
  unfold Gpu.Live Gpu.alloc
  simp only [Function.update_apply]
  by_cases h : a = g.next
  · simp [h]
  · simp only [h, if_false, or_false]
    constructor
    · rintro ⟨h1, h2⟩; exact ⟨by omega, h2⟩
    · rintro ⟨h1, h2⟩; exact ⟨by omega, h2⟩

lemma not_live_next (g : Gpu) : ¬ g.Live g.next := by
  unfold Gpu.Live; omega

lemma live_bind (g : Gpu) (p : Name → Option Nat) (hp : g.ptrs = some p) (n : Name) (b a : Nat) :
    (g.bind n b).Live a ↔ g.Live a ∧ p n ≠ some a := by
  unfold Gpu.bind
  rw [hp]
  show (a < g.next ∧ _ ∧ _) ↔ _
  by_cases h : p n = some a ∧ g.Live a
  · simp [h]
  · simp only [h, if_false]
    constructor
    · intro hl
      have : g.Live a := hl
      exact ⟨this, fun hc => h ⟨hc, this⟩⟩
    · intro hl; exact hl.1

/-- Allocating and binding restores the invariant at the bound entry. -/
lemma wf_allocBind (g : Gpu) (x : Name → Prop) (n : Name) (v : Val) (h : WFx g x)
    (hx : ∀ k, x k → k = n) (p : Name → Option Nat) (hp : g.ptrs = some p) :
    WF ((g.alloc v).bind n g.next) := by
  have hpa : (g.alloc v).ptrs = some p := hp
  have hptr : ((g.alloc v).bind n g.next).ptrs = some (Function.update p n (some g.next)) := by
    unfold Gpu.bind; rw [hpa]
  have hstr : ((g.alloc v).bind n g.next).struct = g.struct := by
    unfold Gpu.bind; rw [hpa]; rfl
  have hnext : ((g.alloc v).bind n g.next).next = g.next + 1 := by
    unfold Gpu.bind; rw [hpa]; rfl
  have hlive : ∀ a, ((g.alloc v).bind n g.next).Live a ↔
      (g.Live a ∨ a = g.next) ∧ p n ≠ some a := by
    intro a; rw [live_bind _ p hpa, live_alloc]
  have hfresh : ∀ k, p k ≠ some g.next := by
    intro k hk
    have := h.ptr_lt p hp k _ hk
    omega
  refine ⟨?_, ?_, ?_, ?_, ?_, ?_, ?_⟩
  · intro q hq k a hk
    rw [hptr] at hq
    obtain rfl := Option.some.inj hq
    right
    rw [hlive]
    by_cases hkn : k = n
    · subst hkn
      rw [Function.update_self] at hk
      obtain rfl := Option.some.inj hk
      exact ⟨Or.inr rfl, hfresh k⟩
    · rw [Function.update_of_ne hkn] at hk
      refine ⟨Or.inl ?_, ?_⟩
      · rcases h.ptr_live p hp k a hk with hh | hh
        · exact absurd (hx k hh) hkn
        · exact hh
      · intro hc
        exact hkn (h.ptr_inj p hp k n a hk hc)
  · intro q hq k a hk
    rw [hptr] at hq
    obtain rfl := Option.some.inj hq
    rw [hnext]
    by_cases hkn : k = n
    · subst hkn
      rw [Function.update_self] at hk
      obtain rfl := Option.some.inj hk
      omega
    · rw [Function.update_of_ne hkn] at hk
      have := h.ptr_lt p hp k a hk
      omega
  · intro q hq k j a hk hj
    rw [hptr] at hq
    obtain rfl := Option.some.inj hq
    by_cases hkn : k = n <;> by_cases hjn : j = n
    · rw [hkn, hjn]
    · subst hkn
      rw [Function.update_self] at hk
      rw [Function.update_of_ne hjn] at hj
      obtain rfl := Option.some.inj hk
      exact absurd hj (hfresh j)
    · subst hjn
      rw [Function.update_self] at hj
      rw [Function.update_of_ne hkn] at hk
      obtain rfl := Option.some.inj hj
      exact absurd hk (hfresh k)
    · rw [Function.update_of_ne hkn] at hk
      rw [Function.update_of_ne hjn] at hj
      exact h.ptr_inj p hp k j a hk hj
  · intro s hs
    rw [hstr] at hs
    rw [hlive]
    exact ⟨Or.inl (h.struct_live s hs), h.struct_sep s p hs hp n⟩
  · intro s q hs hq k hk
    rw [hstr] at hs
    rw [hptr] at hq
    obtain rfl := Option.some.inj hq
    by_cases hkn : k = n
    · subst hkn
      rw [Function.update_self] at hk
      obtain rfl := Option.some.inj hk
      exact not_live_next g (h.struct_live _ hs)
    · rw [Function.update_of_ne hkn] at hk
      exact h.struct_sep s p hs hp k hk
  · intro a ha
    rw [hlive] at ha
    rw [hstr, hptr]
    rcases ha with ⟨ha | ha, hne⟩
    · rcases h.held a ha with hh | ⟨q, k, hq, hk⟩
      · exact Or.inl hh
      · right
        rw [hp] at hq
        obtain rfl := Option.some.inj hq
        have hkn : k ≠ n := fun hc => hne (hc ▸ hk)
        exact ⟨_, k, rfl, by rw [Function.update_of_ne hkn]; exact hk⟩
    · right
      exact ⟨_, n, rfl, by rw [Function.update_self, ha]⟩
  · intro a ha
    rw [hnext] at ha
    have hcell : ((g.alloc v).bind n g.next).cell a =
        if p n = some a ∧ (g.alloc v).Live a then { (g.alloc v).cell a with reclaimed := true }
        else (g.alloc v).cell a := by
      unfold Gpu.bind; rw [hpa]
    rw [hcell]
    by_cases hnx : a = g.next
    · subst hnx
      rw [if_neg (fun hc => hfresh n hc.1)]
      simp [Gpu.alloc]
    · have hlt : a < g.next := by omega
      have hca : (g.alloc v).cell a = g.cell a := by
        unfold Gpu.alloc; exact Function.update_of_ne hnx _ _
      by_cases hc : p n = some a ∧ (g.alloc v).Live a
      · rw [if_pos hc, hca]
        have hl := hc.2
        rw [live_alloc] at hl
        rcases hl with hl | hl
        · simp [hl.2.1]
        · exact absurd hl hnx
      · rw [if_neg hc, hca]; exact h.once a hlt

lemma live_free (g g1 : Gpu) (a : Nat) (h : g.freeCell a = .ok g1) :
    g.Live a ∧ g1.ptrs = g.ptrs ∧ g1.struct = g.struct ∧ g1.next = g.next ∧ g1.attr = g.attr ∧
      g1.returnResidual = g.returnResidual ∧ g1.dirty = g.dirty ∧
      (∀ b, g1.Live b ↔ g.Live b ∧ b ≠ a) ∧ (∀ b, b ≠ a → g1.cell b = g.cell b) ∧
      (g1.cell a).frees = 1 ∧ (g1.cell a).reclaimed = false := by
  unfold Gpu.freeCell at h
  by_cases hl : g.Live a
  · rw [if_pos hl] at h
    obtain rfl := Except.ok.inj h
    refine ⟨hl, rfl, rfl, rfl, rfl, rfl, rfl, ?_, ?_, ?_, ?_⟩
    · intro b
      unfold Gpu.Live
      simp only [Function.update_apply]
      by_cases hb : b = a
      · simp [hb]
      · simp [hb]
    · intro b hb
      exact Function.update_of_ne hb _ _
    · simp [hl.2.1]
    · simp [hl.2.2]
  · rw [if_neg hl] at h; cases h

/-- Freeing the buffer of an entry leaves only that entry dangling. -/
lemma wf_freePtr (g g1 : Gpu) (x : Name → Prop) (h : WFx g x) (p : Name → Option Nat)
    (hp : g.ptrs = some p) (n : Name) (a : Nat) (ha : p n = some a)
    (hf : g.freeCell a = .ok g1) : WFx g1 fun k => x k ∨ k = n := by
  obtain ⟨hl, e1, e2, e3, e4, e5, e6, e7, e8, e9, e10⟩ := live_free g g1 a hf
  refine ⟨?_, ?_, ?_, ?_, ?_, ?_, ?_⟩
  · intro q hq k b hb
    rw [e1, hp] at hq
    obtain rfl := Option.some.inj hq
    by_cases hk : k = n
    · exact Or.inl (Or.inr hk)
    · rcases h.ptr_live p hp k b hb with hh | hh
      · exact Or.inl (Or.inl hh)
      · right
        rw [e7]
        refine ⟨hh, ?_⟩
        rintro rfl
        exact hk (h.ptr_inj p hp k n _ hb ha)
  · intro q hq; rw [e1] at hq; rw [e3]; exact h.ptr_lt q hq
  · intro q hq; rw [e1] at hq; exact h.ptr_inj q hq
  · intro s hs
    rw [e2] at hs
    rw [e7]
    refine ⟨h.struct_live s hs, ?_⟩
    rintro rfl
    exact h.struct_sep _ p hs hp n ha
  · intro s q hs hq
    rw [e1] at hq; rw [e2] at hs
    exact h.struct_sep s q hs hq
  · intro b hb
    rw [e7] at hb
    rw [e1, e2]
    exact h.held b hb.1
  · intro b hb
    rw [e3] at hb
    by_cases hba : b = a
    · subst hba; rw [e9, e10]; simp
    · rw [e8 b hba]; exact h.once b hb

/-- Replacing the structure. -/
lemma wf_allocStruct (g : Gpu) (v : Val) (h : WF g) (hs : g.struct = none) :
    WF { g.alloc v with struct := some g.next } := by
  have hlive : ∀ a, Gpu.Live { g.alloc v with struct := some g.next } a ↔ g.Live a ∨ a = g.next :=
    fun a => live_alloc g v a
  refine ⟨?_, ?_, ?_, ?_, ?_, ?_, ?_⟩
  · intro p hp n a ha
    right; rw [hlive]; exact Or.inl (h.live hp ha)
  · intro p hp n a ha
    have := h.ptr_lt p hp n a ha
    show a < g.next + 1
    omega
  · intro p hp; exact h.ptr_inj p hp
  · intro s hs'
    obtain rfl := Option.some.inj hs'
    rw [hlive]; exact Or.inr rfl
  · intro s p hs' hp n hn
    obtain rfl := Option.some.inj hs'
    have := h.ptr_lt p hp n _ hn
    omega
  · intro a ha
    rw [hlive] at ha
    rcases ha with ha | ha
    · rcases h.held a ha with hh | hh
      · rw [hs] at hh; cases hh
      · exact Or.inr hh
    · left; rw [ha]
  · intro a ha
    show ((g.alloc v).cell a).frees + ((g.alloc v).cell a).reclaimed.toNat ≤ 1
    unfold Gpu.alloc
    by_cases hn : a = g.next
    · subst hn; simp
    · have hlt : a < g.next := by
        have : a < g.next + 1 := ha
        omega
      show (Function.update g.cell g.next _ a).frees + (Function.update g.cell g.next _ a).reclaimed.toNat ≤ 1
      rw [Function.update_of_ne hn]
      exact h.once a hlt

/-- Freeing the structure. -/
lemma wf_freeStruct (g g1 : Gpu) (h : WF g) (s : Nat) (hs : g.struct = some s)
    (hf : g.freeCell s = .ok g1) : WF { g1 with struct := none } := by
  obtain ⟨hl, e1, e2, e3, e4, e5, e6, e7, e8, e9, e10⟩ := live_free g g1 s hf
  have hlive : ∀ a, Gpu.Live { g1 with struct := none } a ↔ g.Live a ∧ a ≠ s := e7
  refine ⟨?_, ?_, ?_, ?_, ?_, ?_, ?_⟩
  · intro p hp n a ha
    right
    have hp' : g.ptrs = some p := e1 ▸ hp
    rw [hlive]
    refine ⟨h.live hp' ha, ?_⟩
    rintro rfl
    exact h.struct_sep _ p hs hp' n ha
  · intro p hp n a ha
    have hp' : g.ptrs = some p := e1 ▸ hp
    show a < g1.next
    rw [e3]; exact h.ptr_lt p hp' n a ha
  · intro p hp; exact h.ptr_inj p (e1 ▸ hp)
  · intro s' hs'; cases hs'
  · intro s' p hs'; cases hs'
  · intro a ha
    rw [hlive] at ha
    right
    rcases h.held a ha.1 with hh | ⟨p, n, hp, hn⟩
    · rw [hs] at hh
      exact absurd (Option.some.inj hh).symm ha.2
    · exact ⟨p, n, (show g1.ptrs = some p by rw [e1]; exact hp), hn⟩
  · intro a ha
    show (g1.cell a).frees + (g1.cell a).reclaimed.toNat ≤ 1
    have ha' : a < g.next := by rw [← e3]; exact ha
    by_cases hba : a = s
    · subst hba; rw [e9, e10]; simp
    · rw [e8 a hba]; exact h.once a ha'

/-- Resetting the dictionary. -/
lemma wf_reset (g : Gpu) (h : WF g) : WF g.resetPtrs := by
  unfold Gpu.resetPtrs
  cases hp : g.ptrs with
  | none =>
    simp only
    refine ⟨?_, ?_, ?_, ?_, ?_, ?_, ?_⟩
    · rintro p hp' n a ha
      obtain rfl := Option.some.inj hp'
      cases ha
    · rintro p hp' n a ha
      obtain rfl := Option.some.inj hp'
      cases ha
    · rintro p hp' n k a ha
      obtain rfl := Option.some.inj hp'
      cases ha
    · exact h.struct_live
    · rintro s p hs hp' n ha
      obtain rfl := Option.some.inj hp'
      cases ha
    · intro a ha
      rcases h.held a ha with hh | ⟨p, n, hp', hn⟩
      · exact Or.inl hh
      · rw [hp] at hp'; cases hp'
    · exact h.once
  | some p =>
    simp only
    set g' : Gpu := { g with
      ptrs := some fun _ => none
      cell := fun a =>
        if (names.any fun n => p n == some a) && decide (g.Live a) then
          { g.cell a with reclaimed := true }
        else g.cell a } with hg'
    have hheld : ∀ a, (names.any fun n => p n == some a) = true ↔ ∃ n, p n = some a := by
      intro a
      simp [mem_names]
    have hlive : ∀ a, g'.Live a ↔ g.Live a ∧ ∀ n, p n ≠ some a := by
      intro a
      show (a < g.next ∧ (g'.cell a).frees = 0 ∧ (g'.cell a).reclaimed = false) ↔ _
      rw [hg']
      simp only
      by_cases hl : g.Live a
      · by_cases hh : ∃ n, p n = some a
        · rw [(hheld a).mpr hh]
          simp only [hl, decide_true, Bool.and_self, if_true]
          constructor
          · rintro ⟨_, _, hc⟩; cases hc
          · rintro ⟨_, hc⟩
            obtain ⟨n, hn⟩ := hh
            exact absurd hn (hc n)
        · have : (names.any fun n => p n == some a) = false := by
            by_contra hc
            exact hh ((hheld a).mp (by simpa using hc))
          rw [this]
          simp only [Bool.false_and, Bool.false_eq_true, if_false]
          constructor
          · intro _; exact ⟨hl, fun n hn => hh ⟨n, hn⟩⟩
          · intro _; exact hl
      · simp only [hl, decide_false, Bool.and_false, Bool.false_eq_true, if_false, false_and,
          iff_false]
        exact hl
    refine ⟨?_, ?_, ?_, ?_, ?_, ?_, ?_⟩
    · rintro q hp' n a ha
      obtain rfl := Option.some.inj hp'
      cases ha
    · rintro q hp' n a ha
      obtain rfl := Option.some.inj hp'
      cases ha
    · rintro q hp' n k a ha
      obtain rfl := Option.some.inj hp'
      cases ha
    · intro s hs
      rw [hlive]
      exact ⟨h.struct_live s hs, h.struct_sep s p hs hp⟩
    · rintro s q hs hp' n ha
      obtain rfl := Option.some.inj hp'
      cases ha
    · intro a ha
      rw [hlive] at ha
      rcases h.held a ha.1 with hh | ⟨q, n, hq, hn⟩
      · exact Or.inl hh
      · rw [hp] at hq
        obtain rfl := Option.some.inj hq
        exact absurd hn (ha.2 n)
    · intro a ha
      show (g'.cell a).frees + (g'.cell a).reclaimed.toNat ≤ 1
      rw [hg']
      simp only
      by_cases hl : g.Live a
      · split
        · simp [hl.2.1]
        · exact h.once a ha
      · simp only [hl, decide_false, Bool.and_false, Bool.false_eq_true, if_false]
        exact h.once a ha

/-! ## Every operation keeps the invariant and never frees twice -/

/-- An outcome that is no double free and whose state satisfies the invariant. -/
def Safe (r : Option Err × Gpu) : Prop := r.1 ≠ some .doubleFree ∧ WF r.2

lemma freeCell_ok (g : Gpu) (a : Nat) (h : g.Live a) : ∃ g1, g.freeCell a = .ok g1 := by
  unfold Gpu.freeCell; rw [if_pos h]; exact ⟨_, rfl⟩

lemma bind_ptrs (g : Gpu) (p : Name → Option Nat) (hp : g.ptrs = some p) (n : Name) (a : Nat) :
    (g.bind n a).ptrs = some (Function.update p n (some a)) := by
  unfold Gpu.bind; rw [hp]

lemma upload_safe (L : List Name) : ∀ g : Gpu, WF g → ∀ p, g.ptrs = some p →
    Safe (Gpu.upload L g) ∧ ∃ q, (Gpu.upload L g).2.ptrs = some q := by
  induction L with
  | nil => intro g h p hp; exact ⟨⟨by simp [Gpu.upload], h⟩, p, hp⟩
  | cons n rest ih =>
    intro g h p hp
    unfold Gpu.upload
    cases ha : g.attr n with
    | none =>
      simp only
      by_cases hn : n = Name.residual
      · rw [if_pos hn]; exact ih g h p hp
      · rw [if_neg hn]; exact ⟨⟨by simp, h⟩, p, hp⟩
    | some a =>
      simp only
      by_cases hn : isPtr n = true
      · rw [if_pos hn]
        exact ih _ (wf_allocBind g _ n _ h (fun k hk => hk.elim) p hp) _
          (bind_ptrs (g.alloc (.arr a)) p hp n _)
      · rw [if_neg hn]; exact ih g h p hp

lemma sendStruct_safe (g : Gpu) (h : WF g) : Safe g.sendStruct := by
  unfold Gpu.sendStruct
  cases hp : g.ptrs with
  | none => exact ⟨by simp, h⟩
  | some p =>
    simp only
    split
    · exact ⟨by simp, h⟩
    · cases hs : g.struct with
      | none => exact ⟨by simp, wf_allocStruct g _ h hs⟩
      | some s =>
        simp only
        obtain ⟨g1, hg1⟩ := freeCell_ok g s (h.struct_live s hs)
        rw [hg1]
        simp only
        refine ⟨by simp, ?_⟩
        exact wf_allocStruct { g1 with struct := none } _ (wf_freeStruct g g1 h s hs hg1) rfl

lemma wf_dirty (g : Gpu) (b : Bool) (h : WF g) : WF { g with dirty := b } :=
  ⟨h.ptr_live, h.ptr_lt, h.ptr_inj, h.struct_live, h.struct_sep, h.held, h.once⟩

lemma reset_ptrs (g : Gpu) : g.resetPtrs.ptrs = some fun _ => none := by
  unfold Gpu.resetPtrs
  cases g.ptrs <;> rfl

lemma send_safe (junk : Arr) (g : Gpu) (h : WF g) : Safe (g.send junk) := by
  unfold Gpu.send
  obtain ⟨hu, q, hq⟩ := upload_safe names g.resetPtrs (wf_reset g h) _ (reset_ptrs g)
  rcases hr : Gpu.upload names g.resetPtrs with ⟨_ | e, g1⟩
  · rw [hr] at hu hq
    simp only
    have hw : WF (if g1.returnResidual then (g1.alloc (.arr junk)).bind Name.residual g1.next else g1) := by
      split
      · exact wf_allocBind g1 _ Name.residual _ hu.2 (fun k hk => hk.elim) q hq
      · exact hu.2
    obtain ⟨hs1, hs2⟩ := sendStruct_safe _ hw
    rcases hr2 : Gpu.sendStruct
      (if g1.returnResidual then (g1.alloc (.arr junk)).bind Name.residual g1.next else g1) with ⟨_ | e, g3⟩
    · rw [hr2] at hs2
      exact ⟨by simp, wf_dirty _ _ hs2⟩
    · rw [hr2] at hs1 hs2
      exact ⟨hs1, hs2⟩
  · rw [hr] at hu
    exact hu

lemma replaceMeta_safe (L : List Name) : ∀ g : Gpu, WF g → Safe (Gpu.replaceMeta L g) := by
  induction L with
  | nil => intro g h; exact ⟨by simp [Gpu.replaceMeta], h⟩
  | cons n rest ih =>
    intro g h
    unfold Gpu.replaceMeta
    cases ha : g.attr n with
    | none => exact ⟨by simp, h⟩
    | some a =>
      simp only
      by_cases hn : isPtr n = true
      · rw [if_pos hn]
        cases hp : g.ptrs with
        | none => exact ⟨by simp, h⟩
        | some p =>
          simp only
          cases ho : p n with
          | none => exact ⟨by simp, h⟩
          | some old =>
            simp only
            obtain ⟨g1, hg1⟩ := freeCell_ok g old (h.live hp ho)
            rw [hg1]
            simp only
            apply ih
            obtain ⟨_, e1, _⟩ := live_free g g1 old hg1
            exact wf_allocBind g1 _ n _ (wf_freePtr g g1 _ h p hp n old ho hg1)
              (fun k hk => hk.elim (fun f => f.elim) id) p (e1.trans hp)
      · rw [if_neg hn]; exact ih g h

lemma wf_swapPtrs (g : Gpu) (h : WF g) : WF { g with ptrs := g.ptrs.map swapPtrs } := by
  have key : ∀ q, g.ptrs.map swapPtrs = some q → ∃ p, g.ptrs = some p ∧ q = swapPtrs p := by
    intro q hq
    cases hp : g.ptrs with
    | none => rw [hp] at hq; cases hq
    | some p => rw [hp] at hq; exact ⟨p, rfl, (Option.some.inj hq).symm⟩
  have hmap : ∀ (p : Name → Option Nat) n, ∃ k, swapPtrs p n = p k := by
    intro p n
    unfold swapPtrs
    by_cases h1 : n = data
    · exact ⟨Name.residual, by rw [if_pos h1]⟩
    · by_cases h2 : n = Name.residual
      · exact ⟨data, by rw [if_neg h1, if_pos h2]⟩
      · exact ⟨n, by rw [if_neg h1, if_neg h2]⟩
  have hinv : ∀ (p : Name → Option Nat) n, ∃ k, p n = swapPtrs p k := by
    intro p n
    unfold swapPtrs
    by_cases h1 : n = data
    · exact ⟨Name.residual, by simp [h1]⟩
    · by_cases h2 : n = Name.residual
      · exact ⟨data, by simp [h2]⟩
      · exact ⟨n, by rw [if_neg h1, if_neg h2]⟩
  refine ⟨?_, ?_, ?_, h.struct_live, ?_, ?_, h.once⟩
  · intro q hq n a ha
    obtain ⟨p, hp, rfl⟩ := key q hq
    obtain ⟨k, hk⟩ := hmap p n
    exact Or.inr (h.live hp (hk ▸ ha))
  · intro q hq n a ha
    obtain ⟨p, hp, rfl⟩ := key q hq
    obtain ⟨k, hk⟩ := hmap p n
    exact h.ptr_lt p hp k a (hk ▸ ha)
  · intro q hq n k a hn hk
    obtain ⟨p, hp, rfl⟩ := key q hq
    have inj := h.ptr_inj p hp
    unfold swapPtrs at hn hk
    by_cases n1 : n = data <;> by_cases k1 : k = data <;> by_cases n2 : n = Name.residual <;>
      by_cases k2 : k = Name.residual <;> simp only [n1, k1, n2, k2, if_true, if_false] at hn hk ⊢ <;>
      first
      | exact inj _ _ a hn hk
      | (have := inj _ _ a hn hk; simp_all)
      | simp_all
  · intro s q hs hq n hn
    obtain ⟨p, hp, rfl⟩ := key q hq
    obtain ⟨k, hk⟩ := hmap p n
    exact h.struct_sep s p hs hp k (hk ▸ hn)
  · intro a ha
    rcases h.held a ha with hh | ⟨p, n, hp, hn⟩
    · exact Or.inl hh
    · obtain ⟨k, hk⟩ := hinv p n
      exact Or.inr ⟨swapPtrs p, k, by show g.ptrs.map swapPtrs = _; rw [hp]; rfl, hk ▸ hn⟩

lemma swap_safe (g : Gpu) (h : WF g) : Safe g.swap := by
  unfold Gpu.swap
  cases hp : g.ptrs with
  | none => exact ⟨by simp, h⟩
  | some p =>
    simp only
    split
    · exact ⟨by simp, h⟩
    · have hr := replaceMeta_safe metaNames g h
      rcases hr1 : Gpu.replaceMeta metaNames g with ⟨_ | e, g1⟩
      · rw [hr1] at hr
        simp only
        obtain ⟨hs1, hs2⟩ := sendStruct_safe _ (wf_swapPtrs g1 hr.2)
        rcases hr2 : Gpu.sendStruct { g1 with ptrs := g1.ptrs.map swapPtrs } with ⟨_ | e, g3⟩
        · rw [hr2] at hs2
          exact ⟨by simp, wf_dirty _ _ hs2⟩
        · rw [hr2] at hs1 hs2
          exact ⟨hs1, hs2⟩
      · rw [hr1] at hr; exact hr

lemma refresh_safe (g : Gpu) (h : WF g) : Safe g.refresh := by
  unfold Gpu.refresh
  have hr := replaceMeta_safe metaNames g h
  rcases hr1 : Gpu.replaceMeta metaNames g with ⟨_ | e, g1⟩
  · rw [hr1] at hr; exact sendStruct_safe g1 hr.2
  · rw [hr1] at hr; exact hr

lemma wf_write (g : Gpu) (a : Nat) (v : Val) (h : WF g) : WF (g.write a v) := by
  have hf : ∀ b, ((g.write a v).cell b).frees = (g.cell b).frees ∧
      ((g.write a v).cell b).reclaimed = (g.cell b).reclaimed := by
    intro b
    unfold Gpu.write
    simp only [Function.update_apply]
    by_cases hb : b = a
    · subst hb; simp
    · simp [hb]
  have hl : ∀ b, (g.write a v).Live b ↔ g.Live b := by
    intro b
    unfold Gpu.Live
    rw [(hf b).1, (hf b).2]
    rfl
  refine ⟨?_, h.ptr_lt, h.ptr_inj, ?_, h.struct_sep, ?_, ?_⟩
  · intro p hp n b hb; rw [hl]; exact h.ptr_live p hp n b hb
  · intro s hs; rw [hl]; exact h.struct_live s hs
  · intro b hb; rw [hl] at hb; exact h.held b hb
  · intro b hb; rw [(hf b).1, (hf b).2]; exact h.once b hb

lemma evaluate_safe {S : Type} (ops : Ops S) (prop : Arr) (g : Gpu) (h : WF g) :
    Safe (g.evaluate ops prop) := by
  unfold Gpu.evaluate
  cases hs : g.struct with
  | none => exact ⟨by simp, h⟩
  | some s =>
    simp only
    split
    · exact ⟨by simp, h⟩
    · cases hv : (g.cell s).val with
      | arr a => exact ⟨by simp, h⟩
      | struct p v =>
        simp only
        split
        · exact ⟨by simp, h⟩
        · cases hr : p Name.residual with
          | none => exact ⟨by simp, h⟩
          | some r =>
            simp only
            split
            · exact ⟨by simp, wf_write _ _ _ h⟩
            · exact ⟨by simp, h⟩

lemma freeAll_step (p : Name → Option Nat) (L : List Name) : L.Nodup → ∀ (g : Gpu)
    (x : Name → Prop), (∀ n ∈ L, ¬ x n) → WFx g x → g.ptrs = some p →
    ∃ g1, Gpu.freeAll p L g = (none, g1) ∧ WFx g1 (fun n => x n ∨ n ∈ L) ∧ g1.ptrs = some p ∧
      g1.struct = g.struct ∧ (∀ n ∈ L, ∀ a, p n = some a → ¬ g1.Live a) ∧
      (∀ a, g1.Live a → g.Live a) := by
  induction L with
  | nil =>
    intro _ g x _ h hp
    exact ⟨g, rfl, by simpa using h, hp, rfl, by simp, fun _ h => h⟩
  | cons n rest ih =>
    intro hnd g x hx h hp
    rw [List.nodup_cons] at hnd
    unfold Gpu.freeAll
    cases ha : p n with
    | none =>
      simp only
      obtain ⟨g1, r1, r2, r3, r4, r5, r6⟩ := ih hnd.2 g x
        (fun k hk => hx k (List.mem_cons_of_mem _ hk)) h hp
      refine ⟨g1, r1, ?_, r3, r4, ?_, r6⟩
      · refine ⟨?_, r2.ptr_lt, r2.ptr_inj, r2.struct_live, r2.struct_sep, r2.held, r2.once⟩
        intro q hq k a hk
        rcases r2.ptr_live q hq k a hk with (hh | hh) | hh
        · exact Or.inl (Or.inl hh)
        · exact Or.inl (Or.inr (List.mem_cons_of_mem _ hh))
        · exact Or.inr hh
      · intro k hk a hka
        rcases List.mem_cons.mp hk with rfl | hk
        · rw [ha] at hka; cases hka
        · exact r5 k hk a hka
    | some a =>
      simp only
      have hla : g.Live a := (h.ptr_live p hp n a ha).resolve_left (hx n List.mem_cons_self)
      obtain ⟨g0, hg0⟩ := freeCell_ok g a hla
      rw [hg0]
      simp only
      obtain ⟨_, e1, e2, e3, e4, e5, e6, e7, e8, e9, e10⟩ := live_free g g0 a hg0
      obtain ⟨g1, r1, r2, r3, r4, r5, r6⟩ := ih hnd.2 g0 (fun k => x k ∨ k = n)
        (by
          rintro k hk (hc | hc)
          · exact hx k (List.mem_cons_of_mem _ hk) hc
          · exact hnd.1 (hc ▸ hk))
        (wf_freePtr g g0 x h p hp n a ha hg0) (e1.trans hp)
      refine ⟨g1, r1, ?_, r3, r4.trans e2, ?_, ?_⟩
      · refine ⟨?_, r2.ptr_lt, r2.ptr_inj, r2.struct_live, r2.struct_sep, r2.held, r2.once⟩
        intro q hq k b hk
        rcases r2.ptr_live q hq k b hk with ((hh | hh) | hh) | hh
        · exact Or.inl (Or.inl hh)
        · exact Or.inl (Or.inr (hh ▸ List.mem_cons_self))
        · exact Or.inl (Or.inr (List.mem_cons_of_mem _ hh))
        · exact Or.inr hh
      · intro k hk b hkb hlb
        rcases List.mem_cons.mp hk with rfl | hk
        · rw [ha] at hkb
          obtain rfl := Option.some.inj hkb
          have := r6 _ hlb
          rw [e7] at this
          exact this.2 rfl
        · exact r5 k hk b hkb hlb
      · intro b hb
        have := r6 b hb
        rw [e7] at this
        exact this.1

lemma freeStruct_safe (g : Gpu) (h : WF g) :
    g.freeStruct.1 = none ∧ WF g.freeStruct.2 ∧ g.freeStruct.2.struct = none ∧
      g.freeStruct.2.ptrs = g.ptrs ∧ g.freeStruct.2.next = g.next := by
  unfold Gpu.freeStruct
  cases hs : g.struct with
  | none => exact ⟨rfl, h, hs, rfl, rfl⟩
  | some s =>
    obtain ⟨g1, hg1⟩ := freeCell_ok g s (h.struct_live s hs)
    simp only [hg1]
    obtain ⟨_, e1, e2, e3, _⟩ := live_free g g1 s hg1
    exact ⟨trivial, wf_freeStruct g g1 h s hs hg1, trivial, e1, e3⟩

lemma names_nodup : names.Nodup := by decide

/-- `free` never raises and leaves no live buffer. -/
lemma free_safe (g : Gpu) (h : WF g) :
    g.free.1 = none ∧ WF g.free.2 ∧ ∀ a, ¬ g.free.2.Live a := by
  unfold Gpu.free
  cases hp : g.ptrs with
  | none =>
    simp only
    obtain ⟨r1, r2, r3, r4, r5⟩ := freeStruct_safe g h
    refine ⟨r1, r2, ?_⟩
    intro a ha
    rcases r2.held a ha with hh | ⟨p, n, hp', _⟩
    · rw [r3] at hh; cases hh
    · rw [r4, hp] at hp'; cases hp'
  | some p =>
    simp only
    obtain ⟨g1, q1, q2, q3, q4, q5, q6⟩ := freeAll_step p names names_nodup g _ (by simp) h hp
    rw [q1]
    simp only
    have hw : WF { g1 with ptrs := some fun _ => none } := by
      refine ⟨?_, ?_, ?_, q2.struct_live, ?_, ?_, q2.once⟩
      · rintro q hq n a ha
        obtain rfl := Option.some.inj hq
        cases ha
      · rintro q hq n a ha
        obtain rfl := Option.some.inj hq
        cases ha
      · rintro q hq n k a ha
        obtain rfl := Option.some.inj hq
        cases ha
      · rintro s q hs hq n ha
        obtain rfl := Option.some.inj hq
        cases ha
      · intro a ha
        have ha' : g1.Live a := ha
        rcases q2.held a ha' with hh | ⟨q, n, hq, hn⟩
        · exact Or.inl hh
        · rw [q3] at hq
          obtain rfl := Option.some.inj hq
          exact absurd ha' (q5 n (mem_names n) a hn)
    obtain ⟨r1, r2, r3, r4, r5⟩ := freeStruct_safe _ hw
    refine ⟨r1, r2, ?_⟩
    intro a ha
    rcases r2.held a ha with hh | ⟨p', n, hp', hn⟩
    · rw [r3] at hh; cases hh
    · rw [r4] at hp'
      obtain rfl := Option.some.inj hp'
      cases hn

/-! ## Histories -/

/-- The operations a caller can perform on a GPU patch.  `repack` stands for everything that changes
host attributes (`build_patch`, `pack_pix`, `pack_meta`, `clear`); none of these sets an attribute
called `residual` on a GPU patch. -/
inductive Op
  | repack (attr : Name → Option Arr)
  | setFlags (returnResidual dirty : Bool)
  | send (junk : Arr)
  | swap
  | refresh
  | evaluate (model : (Name → Arr) → Arr → Arr) (prop : Arr)
  | retrieve (n : Name)
  | free

/-- Performing one operation; an exception leaves the state reached. -/
def step (g : Gpu) : Op → Option Err × Gpu
  | .repack a => (none, { g with attr := Function.update a Name.residual none })
  | .setFlags r d => (none, { g with returnResidual := r, dirty := d })
  | .send junk => g.send junk
  | .swap => g.swap
  | .refresh => g.refresh
  | .evaluate m prop =>
    g.evaluate (S := Unit) { packed := fun _ _ _ => 0, proposal := fun _ _ => 0, model := m } prop
  | .retrieve n =>
    match g.retrieve n with
    | .ok _ => (none, g)
    | .error e => (some e, g)
  | .free => g.free

/-- A history: the exceptions raised on the way (callers may catch them) and the final state. -/
def run (g : Gpu) : List Op → List (Option Err) × Gpu
  | [] => ([], g)
  | o :: rest =>
    let r := step g o
    let t := run r.2 rest
    (r.1 :: t.1, t.2)

/-- A new patch: nothing packed, nothing on the device. -/
def fresh : Gpu :=
  { attr := fun _ => none, next := 0, cell := fun _ => { val := .arr fun _ => 0, frees := 0, reclaimed := false }
    ptrs := none, struct := none, returnResidual := false, dirty := true }

lemma wf_fresh : WF fresh := by
  refine ⟨?_, ?_, ?_, ?_, ?_, ?_, ?_⟩
  · intro p hp; cases hp
  · intro p hp; cases hp
  · intro p hp; cases hp
  · intro s hs; cases hs
  · intro s p hs; cases hs
  · intro a ha; exact absurd ha.1 (by show ¬ a < 0; omega)
  · intro a ha; exact absurd ha (by show ¬ a < 0; omega)

lemma wf_attr (g : Gpu) (a : Name → Option Arr) (h : WF g) : WF { g with attr := a } :=
  ⟨h.ptr_live, h.ptr_lt, h.ptr_inj, h.struct_live, h.struct_sep, h.held, h.once⟩

lemma wf_flags (g : Gpu) (r d : Bool) (h : WF g) : WF { g with returnResidual := r, dirty := d } :=
  ⟨h.ptr_live, h.ptr_lt, h.ptr_inj, h.struct_live, h.struct_sep, h.held, h.once⟩

lemma step_safe (g : Gpu) (h : WF g) (o : Op) : Safe (step g o) := by
  cases o with
  | repack a => exact ⟨by simp [step], wf_attr g _ h⟩
  | setFlags r d => exact ⟨by simp [step], wf_flags g r d h⟩
  | send junk => exact send_safe junk g h
  | swap => exact swap_safe g h
  | refresh => exact refresh_safe g h
  | evaluate m prop => exact evaluate_safe _ prop g h
  | retrieve n =>
    have hne : ∀ e, g.retrieve n = .error e → e ≠ .doubleFree := by
      rintro e hr rfl
      unfold Gpu.retrieve at hr
      split at hr
      · cases hr
      · split at hr
        · cases hr
        · split at hr <;> cases hr
    rcases hr : g.retrieve n with e | a
    · have : step g (.retrieve n) = (some e, g) := by simp only [step, hr]
      rw [this]
      exact ⟨fun hc => hne e hr (Option.some.inj hc), h⟩
    · have : step g (.retrieve n) = (none, g) := by simp only [step, hr]
      rw [this]
      exact ⟨by simp, h⟩
  | free => exact ⟨by rw [show step g .free = g.free from rfl, (free_safe g h).1]; simp, (free_safe g h).2.1⟩

lemma run_safe (ops : List Op) : ∀ g : Gpu, WF g →
    (∀ r ∈ (run g ops).1, r ≠ some .doubleFree) ∧ WF (run g ops).2 := by
  induction ops with
  | nil => intro g h; exact ⟨by simp [run], h⟩
  | cons o rest ih =>
    intro g h
    obtain ⟨s1, s2⟩ := step_safe g h o
    obtain ⟨i1, i2⟩ := ih _ s2
    refine ⟨?_, i2⟩
    intro r hr
    rcases List.mem_cons.mp hr with rfl | hr
    · exact s1
    · exact i1 r hr

/-- C48 (freed at most once). For every history of operations on a new patch, including operations
that raise, no operation ever frees a buffer that was already freed, and every buffer ever allocated
has been released at most once, by an explicit free or by the destruction of its handle. -/
theorem C48_at_most_once (ops : List Op) :
    (∀ r ∈ (run fresh ops).1, r ≠ some .doubleFree) ∧
    ∀ a < (run fresh ops).2.next,
      ((run fresh ops).2.cell a).frees + ((run fresh ops).2.cell a).reclaimed.toNat ≤ 1 :=
  ⟨(run_safe ops fresh wf_fresh).1, (run_safe ops fresh wf_fresh).2.once⟩

/-- C48 (nothing left). After a final `free`, which never raises, every buffer ever allocated has
been released exactly once; a second `free` changes nothing. -/
theorem C48_final_free_partial (ops : List Op) :
    (step (run fresh ops).2 .free).1 = none ∧
    (∀ a < (step (run fresh ops).2 .free).2.next,
      ((step (run fresh ops).2 .free).2.cell a).frees +
        ((step (run fresh ops).2 .free).2.cell a).reclaimed.toNat = 1) ∧
    (step (step (run fresh ops).2 .free).2 .free).1 = none := by
  have hw := (run_safe ops fresh wf_fresh).2
  obtain ⟨f1, f2, f3⟩ := free_safe _ hw
  refine ⟨f1, ?_, (free_safe _ f2).1⟩
  intro a ha
  have h1 := f2.once a ha
  have h2 : ¬ (step (run fresh ops).2 .free).2.Live a := f3 a
  by_contra hne
  apply h2
  refine ⟨ha, ?_, ?_⟩
  · show ((run fresh ops).2.free.2.cell a).frees = 0
    have : ((run fresh ops).2.free.2.cell a).frees +
      ((run fresh ops).2.free.2.cell a).reclaimed.toNat ≠ 1 := hne
    omega
  · show ((run fresh ops).2.free.2.cell a).reclaimed = false
    have : ((run fresh ops).2.free.2.cell a).frees +
      ((run fresh ops).2.free.2.cell a).reclaimed.toNat ≠ 1 := hne
    cases hr : ((run fresh ops).2.free.2.cell a).reclaimed with
    | false => rfl
    | true =>
      rw [hr] at h1 this
      simp only [Bool.toNat_true] at h1 this
      omega

end Forcepho.Device
