import Verif.Device.Cpu
import Verif.Kernel.Sums

/-!
# C48: who releases a buffer, and which buffers the kernel touches
-/

set_option autoImplicit false
set_option linter.unusedSectionVars false

namespace Forcepho.Device

/-! ## Explicit frees only -/

/-- No buffer has been left to the destructor. -/
def NR (g : Gpu) : Prop := ∀ a, (g.cell a).reclaimed = false

lemma nr_alloc (g : Gpu) (v : Val) (h : NR g) : NR (g.alloc v) := by
  intro a
  unfold Gpu.alloc
  by_cases ha : a = g.next
  · subst ha; simp
  · simp only [Function.update_of_ne ha]; exact h a

lemma nr_free (g g1 : Gpu) (a : Nat) (h : NR g) (hf : g.freeCell a = .ok g1) : NR g1 := by
  obtain ⟨hl, e1, e2, e3, e4, e5, e6, e7, e8, e9, e10⟩ := live_free g g1 a hf
  intro b
  by_cases hb : b = a
  · rw [hb]; exact e10
  · rw [e8 b hb]; exact h b

lemma nr_bind (g : Gpu) (p : Name → Option Nat) (hp : g.ptrs = some p) (n : Name) (b : Nat) (h : NR g)
    (hd : ∀ a, p n = some a → ¬ g.Live a) : NR (g.bind n b) := by
  intro a
  unfold Gpu.bind
  rw [hp]
  show (if p n = some a ∧ g.Live a then { g.cell a with reclaimed := true } else g.cell a).reclaimed = _
  rw [if_neg (fun hc => hd a hc.1 hc.2)]
  exact h a

lemma nr_reset (g : Gpu) (h : NR g) (he : ∀ p, g.ptrs = some p → ∀ n, p n = none) : NR g.resetPtrs := by
  unfold Gpu.resetPtrs
  cases hp : g.ptrs with
  | none => exact h
  | some p =>
    intro a
    simp only
    rw [if_neg ?_]
    · exact h a
    · have hz := he p hp
      simp [hz]

lemma nr_upload (L : List Name) : L.Nodup → ∀ (g : Gpu) (p : Name → Option Nat), NR g →
    g.ptrs = some p → (∀ n ∈ L, p n = none) → g.attr Name.residual = none →
    NR (Gpu.upload L g).2 ∧ ∃ q, (Gpu.upload L g).2.ptrs = some q ∧
      (p Name.residual = none → q Name.residual = none) := by
  induction L with
  | nil => intro _ g p h hp _ _; exact ⟨h, p, hp, fun h => h⟩
  | cons n rest ih =>
    intro hnd g p h hp hL hr
    rw [List.nodup_cons] at hnd
    unfold Gpu.upload
    cases ha : g.attr n with
    | none =>
      simp only
      by_cases hn : n = Name.residual
      · rw [if_pos hn]
        exact ih hnd.2 g p h hp (fun k hk => hL k (List.mem_cons_of_mem _ hk)) hr
      · rw [if_neg hn]; exact ⟨h, p, hp, fun h => h⟩
    | some a =>
      have hnr : n ≠ Name.residual := by rintro rfl; rw [hr] at ha; cases ha
      simp only
      by_cases hn : isPtr n = true
      · rw [if_pos hn]
        have hb := bind_ptrs (g.alloc (.arr a)) p hp n g.next
        obtain ⟨i1, q, i2, i3⟩ := ih hnd.2 _ _
          (nr_bind (g.alloc (.arr a)) p hp n g.next (nr_alloc g _ h)
            (by intro b hb; rw [hL n List.mem_cons_self] at hb; cases hb)) hb
          (by
            intro k hk
            have : k ≠ n := fun hc => hnd.1 (hc ▸ hk)
            rw [Function.update_of_ne this]
            exact hL k (List.mem_cons_of_mem _ hk))
          (by
            have : ((g.alloc (.arr a)).bind n g.next).attr = g.attr := by
              unfold Gpu.bind
              rw [show (g.alloc (.arr a)).ptrs = some p from hp]; rfl
            rw [this]; exact hr)
        refine ⟨i1, q, i2, ?_⟩
        intro hz
        apply i3
        rw [Function.update_of_ne hnr.symm]; exact hz
      · rw [if_neg hn]
        exact ih hnd.2 g p h hp (fun k hk => hL k (List.mem_cons_of_mem _ hk)) hr

lemma nr_sendStruct (g : Gpu) (h : NR g) : NR g.sendStruct.2 := by
  unfold Gpu.sendStruct
  cases hp : g.ptrs with
  | none => exact h
  | some p =>
    simp only
    split
    · exact h
    · cases hs : g.struct with
      | none => exact nr_alloc g _ h
      | some s =>
        cases hf : g.freeCell s with
        | error e => simp only [hf]; exact h
        | ok g1 => simp only [hf]; exact nr_alloc g1 _ (nr_free g g1 s h hf)

lemma nr_send (junk : Arr) (g : Gpu) (h : NR g) (he : ∀ p, g.ptrs = some p → ∀ n, p n = none)
    (hr : g.attr Name.residual = none) : NR (g.send junk).2 := by
  have hra : g.resetPtrs.attr = g.attr := by unfold Gpu.resetPtrs; cases g.ptrs <;> rfl
  obtain ⟨u1, q, u2, u3⟩ := nr_upload names names_nodup g.resetPtrs _ (nr_reset g h he) (reset_ptrs g)
    (fun _ _ => rfl) (by rw [hra]; exact hr)
  unfold Gpu.send
  rcases hu : Gpu.upload names g.resetPtrs with ⟨_ | e, g1⟩
  · rw [hu] at u1 u2
    simp only
    have hw : NR (if g1.returnResidual then (g1.alloc (.arr junk)).bind Name.residual g1.next else g1) := by
      split
      · exact nr_bind (g1.alloc (.arr junk)) q u2 _ _ (nr_alloc g1 _ u1)
          (by intro b hb; rw [u3 rfl] at hb; cases hb)
      · exact u1
    have := nr_sendStruct _ hw
    rcases hr2 : Gpu.sendStruct
      (if g1.returnResidual then (g1.alloc (.arr junk)).bind Name.residual g1.next else g1) with ⟨_ | e, g3⟩
    · rw [hr2] at this; exact this
    · rw [hr2] at this; exact this
  · rw [hu] at u1; exact u1

lemma nr_replaceMeta (L : List Name) : ∀ g : Gpu, NR g → WF g → NR (Gpu.replaceMeta L g).2 := by
  induction L with
  | nil => intro g h _; exact h
  | cons n rest ih =>
    intro g h wf
    unfold Gpu.replaceMeta
    cases ha : g.attr n with
    | none => exact h
    | some a =>
      simp only
      by_cases hn : isPtr n = true
      · rw [if_pos hn]
        cases hp : g.ptrs with
        | none => exact h
        | some p =>
          simp only
          cases ho : p n with
          | none => exact h
          | some old =>
            simp only
            obtain ⟨g1, hg1⟩ := freeCell_ok g old (wf.live hp ho)
            rw [hg1]
            simp only
            obtain ⟨_, e1, e2, e3, e4, e5, e6, e7, e8, e9, e10⟩ := live_free g g1 old hg1
            apply ih
            · apply nr_bind (g1.alloc (.arr a)) p (e1.trans hp) n _ (nr_alloc g1 _ (nr_free g g1 old h hg1))
              intro b hb hl
              rw [ho] at hb
              obtain rfl := Option.some.inj hb
              rw [live_alloc, e7] at hl
              rcases hl with hl | hl
              · exact hl.2 rfl
              · have := wf.ptr_lt p hp n _ ho
                omega
            · exact wf_allocBind g1 _ n _ (wf_freePtr g g1 _ wf p hp n old ho hg1)
                (fun k hk => hk.elim (fun f => f.elim) id) p (e1.trans hp)
      · rw [if_neg hn]; exact ih g h wf

lemma nr_freeAll (p : Name → Option Nat) (L : List Name) : ∀ g : Gpu, NR g → NR (Gpu.freeAll p L g).2 := by
  induction L with
  | nil => intro g h; exact h
  | cons n rest ih =>
    intro g h
    unfold Gpu.freeAll
    cases p n with
    | none => exact ih g h
    | some a =>
      simp only
      cases hf : g.freeCell a with
      | error e => exact h
      | ok g1 => exact ih g1 (nr_free g g1 a h hf)

lemma nr_freeStruct (g : Gpu) (h : NR g) : NR g.freeStruct.2 := by
  unfold Gpu.freeStruct
  cases g.struct with
  | none => exact h
  | some s =>
    simp only
    cases hf : g.freeCell s with
    | error e => exact h
    | ok g1 => exact nr_free g g1 s h hf

lemma nr_free_all (g : Gpu) (h : NR g) : NR g.free.2 := by
  unfold Gpu.free
  cases g.ptrs with
  | none => exact nr_freeStruct g h
  | some p =>
    simp only
    have := nr_freeAll p names g h
    rcases hf : Gpu.freeAll p names g with ⟨_ | e, g1⟩
    · rw [hf] at this
      exact nr_freeStruct { g1 with ptrs := some fun _ => none } this
    · rw [hf] at this; exact this

lemma nr_evaluate {S : Type} (ops : Ops S) (prop : Arr) (g : Gpu) (h : NR g) :
    NR (g.evaluate ops prop).2 := by
  unfold Gpu.evaluate
  cases hs : g.struct with
  | none => exact h
  | some s =>
    simp only
    split
    · exact h
    · cases hv : (g.cell s).val with
      | arr a => exact h
      | struct p v =>
        simp only
        split
        · exact h
        · cases hr : p Name.residual with
          | none => exact h
          | some r =>
            simp only
            split
            · intro a
              show (Function.update g.cell r _ a).reclaimed = false
              by_cases ha : a = r
              · subst ha; rw [Function.update_self]; exact h a
              · rw [Function.update_of_ne ha]; exact h a
            · exact h

/-! ### `attr` is only changed by repacking -/

lemma freeCell_attr (g g1 : Gpu) (a : Nat) (h : g.freeCell a = .ok g1) : g1.attr = g.attr :=
  (live_free g g1 a h).2.2.2.2.1

lemma bind_attr (g : Gpu) (n : Name) (a : Nat) : (g.bind n a).attr = g.attr := by
  unfold Gpu.bind; cases g.ptrs <;> rfl

lemma sendStruct_attr (g : Gpu) : g.sendStruct.2.attr = g.attr := by
  unfold Gpu.sendStruct
  cases hp : g.ptrs with
  | none => rfl
  | some p =>
    simp only
    split
    · rfl
    · cases hs : g.struct with
      | none => rfl
      | some s =>
        cases hf : g.freeCell s with
        | error e => simp only [hf]
        | ok g1 => simp only [hf]; exact freeCell_attr g g1 s hf

lemma upload_attr (L : List Name) : ∀ g : Gpu, (Gpu.upload L g).2.attr = g.attr := by
  induction L with
  | nil => intro g; rfl
  | cons n rest ih =>
    intro g
    unfold Gpu.upload
    cases g.attr n with
    | none =>
      simp only
      split
      · exact ih g
      · rfl
    | some a =>
      simp only
      split
      · rw [ih, bind_attr]; rfl
      · exact ih g

lemma send_attr (junk : Arr) (g : Gpu) : (g.send junk).2.attr = g.attr := by
  have hra : g.resetPtrs.attr = g.attr := by unfold Gpu.resetPtrs; cases g.ptrs <;> rfl
  have hu := upload_attr names g.resetPtrs
  unfold Gpu.send
  rcases hr : Gpu.upload names g.resetPtrs with ⟨_ | e, g1⟩
  · rw [hr] at hu
    simp only
    have hs := sendStruct_attr
      (if g1.returnResidual then (g1.alloc (.arr junk)).bind Name.residual g1.next else g1)
    have hb : (if g1.returnResidual then (g1.alloc (.arr junk)).bind Name.residual g1.next
        else g1).attr = g1.attr := by
      split
      · rw [bind_attr]; rfl
      · rfl
    rcases hr2 : Gpu.sendStruct
      (if g1.returnResidual then (g1.alloc (.arr junk)).bind Name.residual g1.next else g1) with ⟨_ | e, g3⟩
    · rw [hr2] at hs
      exact (hs.trans hb).trans (hu.trans hra)
    · rw [hr2] at hs
      exact (hs.trans hb).trans (hu.trans hra)
  · rw [hr] at hu; exact hu.trans hra

lemma replaceMeta_attr (L : List Name) : ∀ g : Gpu, (Gpu.replaceMeta L g).2.attr = g.attr := by
  induction L with
  | nil => intro g; rfl
  | cons n rest ih =>
    intro g
    unfold Gpu.replaceMeta
    cases g.attr n with
    | none => rfl
    | some a =>
      simp only
      split
      · cases hp : g.ptrs with
        | none => rfl
        | some p =>
          simp only
          cases p n with
          | none => rfl
          | some old =>
            simp only
            cases hf : g.freeCell old with
            | error e => rfl
            | ok g1 =>
              simp only
              rw [ih, bind_attr]
              exact freeCell_attr g g1 old hf
      · exact ih g

lemma freeAll_attr (p : Name → Option Nat) (L : List Name) :
    ∀ g : Gpu, (Gpu.freeAll p L g).2.attr = g.attr := by
  induction L with
  | nil => intro g; rfl
  | cons n rest ih =>
    intro g
    unfold Gpu.freeAll
    cases p n with
    | none => exact ih g
    | some a =>
      simp only
      cases hf : g.freeCell a with
      | error e => rfl
      | ok g1 => exact (ih g1).trans (freeCell_attr g g1 a hf)

lemma freeStruct_attr (g : Gpu) : g.freeStruct.2.attr = g.attr := by
  unfold Gpu.freeStruct
  cases g.struct with
  | none => rfl
  | some s =>
    simp only
    cases hf : g.freeCell s with
    | error e => rfl
    | ok g1 => exact freeCell_attr g g1 s hf

lemma swap_attr (g : Gpu) : g.swap.2.attr = g.attr := by
  unfold Gpu.swap
  cases g.ptrs with
  | none => rfl
  | some p =>
    simp only
    split
    · rfl
    · have := replaceMeta_attr metaNames g
      rcases hr : Gpu.replaceMeta metaNames g with ⟨_ | e, g1⟩
      · rw [hr] at this
        simp only
        have hs := sendStruct_attr { g1 with ptrs := g1.ptrs.map swapPtrs }
        rcases hr2 : Gpu.sendStruct { g1 with ptrs := g1.ptrs.map swapPtrs } with ⟨_ | e, g3⟩
        · rw [hr2] at hs; exact hs.trans this
        · rw [hr2] at hs; exact hs.trans this
      · rw [hr] at this; exact this

lemma refresh_attr (g : Gpu) : g.refresh.2.attr = g.attr := by
  unfold Gpu.refresh
  have := replaceMeta_attr metaNames g
  rcases hr : Gpu.replaceMeta metaNames g with ⟨_ | e, g1⟩
  · rw [hr] at this
    exact (sendStruct_attr g1).trans this
  · rw [hr] at this; exact this

lemma evaluate_attr {S : Type} (ops : Ops S) (prop : Arr) (g : Gpu) :
    (g.evaluate ops prop).2.attr = g.attr := by
  unfold Gpu.evaluate
  cases g.struct with
  | none => rfl
  | some s =>
    simp only
    split
    · rfl
    · cases (g.cell s).val with
      | arr a => rfl
      | struct p v =>
        simp only
        split
        · rfl
        · cases p Name.residual with
          | none => rfl
          | some r =>
            simp only
            split <;> rfl

lemma step_residual (g : Gpu) (o : Op) (h : g.attr Name.residual = none) :
    (step g o).2.attr Name.residual = none := by
  cases o with
  | repack a => show Function.update a Name.residual none Name.residual = none; simp
  | setFlags r d => exact h
  | send junk => rw [show step g (.send junk) = g.send junk from rfl, send_attr]; exact h
  | swap => rw [show step g .swap = g.swap from rfl, swap_attr]; exact h
  | refresh => rw [show step g .refresh = g.refresh from rfl, refresh_attr]; exact h
  | evaluate m prop => unfold step; rw [evaluate_attr]; exact h
  | retrieve n =>
    unfold step
    simp only
    split <;> exact h
  | free =>
    show g.free.2.attr _ = _
    unfold Gpu.free
    cases g.ptrs with
    | none => rw [freeStruct_attr]; exact h
    | some p =>
      simp only
      have := freeAll_attr p names g
      rcases hf : Gpu.freeAll p names g with ⟨_ | e, g1⟩
      · rw [hf] at this
        show (Gpu.freeStruct { g1 with ptrs := some fun _ => none }).2.attr _ = _
        rw [freeStruct_attr]
        show g1.attr _ = _
        rw [this]; exact h
      · rw [hf] at this
        show g1.attr _ = _
        rw [this]; exact h

/-- Sending only happens when the patch holds no device arrays: at first or after `free`. -/
def Disciplined (g : Gpu) : List Op → Prop
  | [] => True
  | o :: rest =>
    ((∃ junk, o = .send junk) → ∀ p, g.ptrs = some p → ∀ n, p n = none) ∧
      Disciplined (step g o).2 rest

lemma run_nr (ops : List Op) : ∀ g : Gpu, WF g → NR g → g.attr Name.residual = none →
    Disciplined g ops → NR (run g ops).2 := by
  induction ops with
  | nil => intro g _ h _ _; exact h
  | cons o rest ih =>
    intro g wf h hr hd
    refine ih (step g o).2 (step_safe g wf o).2 ?_ (step_residual g o hr) hd.2
    cases o with
    | repack a => exact h
    | setFlags r d => exact h
    | send junk => exact nr_send junk g h (hd.1 ⟨junk, rfl⟩) hr
    | swap =>
      show NR g.swap.2
      unfold Gpu.swap
      cases g.ptrs with
      | none => exact h
      | some p =>
        simp only
        split
        · exact h
        · have hm := nr_replaceMeta metaNames g h wf
          rcases hr1 : Gpu.replaceMeta metaNames g with ⟨_ | e, g1⟩
          · rw [hr1] at hm
            simp only
            have hs := nr_sendStruct { g1 with ptrs := g1.ptrs.map swapPtrs } hm
            rcases hr2 : Gpu.sendStruct { g1 with ptrs := g1.ptrs.map swapPtrs } with ⟨_ | e, g3⟩
            · rw [hr2] at hs; exact hs
            · rw [hr2] at hs; exact hs
          · rw [hr1] at hm; exact hm
    | refresh =>
      show NR g.refresh.2
      unfold Gpu.refresh
      have hm := nr_replaceMeta metaNames g h wf
      rcases hr1 : Gpu.replaceMeta metaNames g with ⟨_ | e, g1⟩
      · rw [hr1] at hm; exact nr_sendStruct g1 hm
      · rw [hr1] at hm; exact hm
    | evaluate m prop => exact nr_evaluate _ prop g h
    | retrieve n =>
      unfold step
      simp only
      split <;> exact h
    | free => exact nr_free_all g h

/-- C48 (explicit frees). In every history that sends only while the patch holds no device arrays,
followed by a final `free`, every buffer ever allocated was freed explicitly exactly once. -/
theorem C48_explicit_partial (ops : List Op) (hd : Disciplined fresh ops) :
    ∀ a < (step (run fresh ops).2 .free).2.next,
      ((step (run fresh ops).2 .free).2.cell a).frees = 1 := by
  intro a ha
  have h1 := (C48_final_free_partial ops).2.1 a ha
  have h2 : NR (run fresh ops).2 := run_nr ops fresh wf_fresh (fun _ => rfl) rfl hd
  have h3 : ((step (run fresh ops).2 .free).2.cell a).reclaimed = false := nr_free_all _ h2 a
  rw [h3] at h1
  simpa using h1

/-- Arrays for every field. -/
def exAttr : Name → Option Arr := fun _ => some fun _ => 0

/-- Uninitialised memory. -/
def exJunk : Arr := fun _ => 0

/-- A kernel. -/
def exKernel : (Name → Arr) → Arr → Arr := fun _ _ _ => 0

lemma free_empties (g : Gpu) (wf : WF g) (p : Name → Option Nat)
    (hp : (step g .free).2.ptrs = some p) (n : Name) : p n = none := by
  obtain ⟨f1, f2, f3⟩ := free_safe g wf
  by_contra hc
  obtain ⟨a, ha⟩ := Option.ne_none_iff_exists'.mp hc
  exact f3 a (f2.live hp ha)

/-- C48 refuted for explicit frees: after sending twice in a row and freeing, the first
buffer was never freed by the code; only the destruction of its handle released it. -/
theorem C48_resend_unfreed :
    ((run fresh [.repack exAttr, .send exJunk, .send exJunk, .free]).2.cell 0).frees = 0 ∧
    ((run fresh [.repack exAttr, .send exJunk, .send exJunk, .free]).2.cell 0).reclaimed = true := by
  constructor <;> decide +kernel

/-- A disciplined history with a residual buffer, a swap and two send–free cycles. -/
example (junk : Arr) : Disciplined fresh
    [.repack exAttr, .setFlags true false, .send junk, .swap, .refresh, .free, .send junk] := by
  refine ⟨by simp, by simp, ?_, by simp, by simp, by simp, ?_, trivial⟩
  · intro _ p hp; cases hp
  · intro _ p hp n
    refine free_empties _ ?_ p hp n
    exact (step_safe _ (step_safe _ (step_safe _ (step_safe _ (step_safe _ wf_fresh _).2 _).2 _).2 _).2
      _).2

/-! ## The kernel touches live buffers only -/

/-- Between operations that did not raise: either nothing is on the device, or everything is and the
structure mirrors the dictionary. -/
def Good (g : Gpu) : Prop :=
  (g.struct = none ∧ ∀ p, g.ptrs = some p → ∀ n, p n = none) ∨
  ∃ p s v, g.ptrs = some p ∧ g.struct = some s ∧
    (g.cell s).val = .struct (fun n => if isPtr n then p n else none) v ∧
    (∀ n, isPtr n = true → n ≠ Name.residual → ∃ a, p n = some a) ∧
    ∀ n a, p n = some a → ∃ x, (g.cell a).val = .arr x

lemma upload_success (L : List Name) : ∀ g : Gpu, (Gpu.upload L g).1 = none →
    ∀ n ∈ L, n ≠ Name.residual → ∃ x, g.attr n = some x := by
  induction L with
  | nil => intro g _ n hn; cases hn
  | cons k rest ih =>
    intro g hu n hn hnr
    unfold Gpu.upload at hu
    cases ha : g.attr k with
    | none =>
      rw [ha] at hu
      simp only at hu
      by_cases hk : k = Name.residual
      · rw [if_pos hk] at hu
        rcases List.mem_cons.mp hn with rfl | hn
        · exact absurd hk hnr
        · exact ih g hu n hn hnr
      · rw [if_neg hk] at hu; cases hu
    | some a =>
      rw [ha] at hu
      simp only at hu
      rcases List.mem_cons.mp hn with rfl | hn
      · exact ⟨a, ha⟩
      · split at hu
        · have := ih _ hu n hn hnr
          rw [bind_attr] at this
          exact this
        · exact ih g hu n hn hnr

lemma replaceMeta_success (L : List Name) : L.Nodup → ∀ g : Gpu, WF g →
    (Gpu.replaceMeta L g).1 = none →
    (∀ n ∈ L, ∃ x, g.attr n = some x) ∧
    (∀ n ∈ L, isPtr n = true → ∃ p a, g.ptrs = some p ∧ p n = some a) := by
  induction L with
  | nil => intro _ g _ _; simp
  | cons k rest ih =>
    intro hnd g wf hu
    rw [List.nodup_cons] at hnd
    unfold Gpu.replaceMeta at hu
    cases ha : g.attr k with
    | none => rw [ha] at hu; cases hu
    | some a =>
      rw [ha] at hu
      simp only at hu
      by_cases hk : isPtr k = true
      · rw [if_pos hk] at hu
        cases hp : g.ptrs with
        | none => rw [hp] at hu; cases hu
        | some p =>
          rw [hp] at hu
          simp only at hu
          cases ho : p k with
          | none => rw [ho] at hu; cases hu
          | some old =>
            rw [ho] at hu
            simp only at hu
            obtain ⟨g1, hg1⟩ := freeCell_ok g old (wf.live hp ho)
            rw [hg1] at hu
            simp only at hu
            obtain ⟨_, e1, e2, e3, e4, _⟩ := live_free g g1 old hg1
            obtain ⟨i1, i2⟩ := ih hnd.2 _
              (wf_allocBind g1 _ k _ (wf_freePtr g g1 _ wf p hp k old ho hg1)
                (fun k hk => hk.elim (fun f => f.elim) id) p (e1.trans hp)) hu
            rw [bind_attr, show (g1.alloc (.arr a)).attr = g.attr from e4] at i1
            rw [bind_ptrs (g1.alloc (.arr a)) p (e1.trans hp)] at i2
            constructor
            · intro n hn
              rcases List.mem_cons.mp hn with rfl | hn
              · exact ⟨a, ha⟩
              · exact i1 n hn
            · intro n hn hn2
              rcases List.mem_cons.mp hn with rfl | hn
              · exact ⟨p, old, rfl, ho⟩
              · obtain ⟨q, b, hq, hb⟩ := i2 n hn hn2
                obtain rfl := Option.some.inj hq
                have : n ≠ k := fun hc => hnd.1 (hc ▸ hn)
                rw [Function.update_of_ne this] at hb
                exact ⟨p, b, rfl, hb⟩
      · rw [if_neg hk] at hu
        obtain ⟨i1, i2⟩ := ih hnd.2 g wf hu
        constructor
        · intro n hn
          rcases List.mem_cons.mp hn with rfl | hn
          · exact ⟨a, ha⟩
          · exact i1 n hn
        · intro n hn hn2
          rcases List.mem_cons.mp hn with rfl | hn
          · exact absurd hn2 hk
          · exact i2 n hn hn2

lemma read_arr (g : Gpu) (a : Nat) (x : Arr) (h : g.read a = some x) : (g.cell a).val = .arr x := by
  unfold Gpu.read at h
  rw [if_pos (read_live g a x h)] at h
  split at h
  · rename_i y hy
    rw [hy]; rw [Option.some.inj h]
  · cases h

lemma arr_read (g : Gpu) (a : Nat) (x : Arr) (h : (g.cell a).val = .arr x) (hl : g.Live a) :
    g.read a = some x := by
  unfold Gpu.read
  rw [if_pos hl, h]

/-- Refilling the structure from a dictionary whose entries are all arrays. -/
lemma good_sendStruct (g : Gpu) (p : Name → Option Nat) (wf : WF g) (hp : g.ptrs = some p)
    (hall : ∀ n, isPtr n = true → n ≠ Name.residual → ∃ a, p n = some a)
    (harr : ∀ n a, p n = some a → ∃ x, (g.cell a).val = .arr x)
    (hs : g.sendStruct.1 = none) : Good g.sendStruct.2 := by
  have h1 : ∃ x, g.attr Name.n_sources = some x := by
    unfold Gpu.sendStruct at hs
    rw [hp] at hs
    cases ha : g.attr Name.n_sources with
    | some x => exact ⟨x, rfl⟩
    | none => simp [ha] at hs
  have h2 : ∃ x, g.attr Name.n_radii = some x := by
    unfold Gpu.sendStruct at hs
    rw [hp] at hs
    cases ha : g.attr Name.n_radii with
    | some x => exact ⟨x, rfl⟩
    | none => simp [ha] at hs
  obtain ⟨x1, hx1⟩ := h1
  obtain ⟨x2, hx2⟩ := h2
  obtain ⟨g', s, v, q1, q2, q3, q4, q5, q6, q7, q8, q9, q10, q11⟩ := sendStruct_ok g p wf hp x1 x2 hx1 hx2
  rw [q1]
  right
  refine ⟨p, s, v, q3, q7, q8, hall, ?_⟩
  intro n a ha
  obtain ⟨x, hx⟩ := harr n a ha
  exact ⟨x, by rw [(q11 a ⟨n, ha⟩).2]; exact hx⟩

/-- The effect of replacing the metadata, for a device that is filled. -/
lemma replace_good (g : Gpu) (wf : WF g) (hg : Good g)
    (hs : (Gpu.replaceMeta metaNames g).1 = none) :
    ∃ g1 p1, Gpu.replaceMeta metaNames g = (none, g1) ∧ WF g1 ∧ g1.ptrs = some p1 ∧
      (∀ n, isPtr n = true → n ≠ Name.residual → ∃ a, p1 n = some a) ∧
      (∀ p, g.ptrs = some p → p1 Name.residual = p Name.residual) ∧
      ∀ n a, p1 n = some a → ∃ x, (g1.cell a).val = .arr x := by
  obtain ⟨s1, s2⟩ := replaceMeta_success metaNames metaNames_nodup g wf hs
  rcases hg with ⟨_, hz⟩ | ⟨p, s, v, hp, hst, hv, hall, harr⟩
  · obtain ⟨p, a, hp, ha⟩ := s2 Name.rad2 (by decide) rfl
    rw [hz p hp] at ha; cases ha
  · obtain ⟨g1, p1, r, R⟩ := replaceMeta_ok (fun n => (g.attr n).getD fun _ => 0) metaNames
      metaNames_nodup g p wf hp
      (fun n hn => by obtain ⟨x, hx⟩ := s1 n hn; rw [hx]; rfl)
      (fun n hn hn2 => by
        obtain ⟨q, a, hq, ha⟩ := s2 n hn hn2
        rw [hp] at hq
        obtain rfl := Option.some.inj hq
        exact ⟨a, ha⟩)
    refine ⟨g1, p1, r, R.wf, R.ptrs, ?_, ?_, ?_⟩
    · intro n hn hnr
      by_cases hm : n ∈ metaNames
      · obtain ⟨a, ha, _⟩ := R.new n hm hn; exact ⟨a, ha⟩
      · rw [R.other n (Or.inl hm)]; exact hall n hn hnr
    · intro q hq
      rw [hp] at hq
      obtain rfl := Option.some.inj hq
      exact R.other _ (Or.inl (by decide))
    · intro n a ha
      by_cases hm : n ∈ metaNames ∧ isPtr n = true
      · obtain ⟨b, hb, hrb⟩ := R.new n hm.1 hm.2
        rw [hb] at ha
        obtain rfl := Option.some.inj ha
        exact ⟨_, read_arr g1 _ _ hrb⟩
      · have hor : n ∉ metaNames ∨ isPtr n = false := by
          by_contra hc
          push Not at hc
          exact hm ⟨hc.1, by simpa using hc.2⟩
        rw [R.other n hor] at ha
        obtain ⟨x, hx⟩ := harr n a ha
        obtain ⟨_, k2⟩ := R.keep a (wf.live hp ha) (by
          intro j hj hj2 hc
          have := wf.ptr_inj p hp n j a ha hc
          subst this
          exact hm ⟨hj, hj2⟩)
        exact ⟨x, by rw [k2]; exact hx⟩

lemma step_good (g : Gpu) (wf : WF g) (hr : g.attr Name.residual = none) (hg : Good g) (o : Op)
    (hs : (step g o).1 = none) : Good (step g o).2 := by
  cases o with
  | repack a => exact hg
  | setFlags r d => exact hg
  | retrieve n =>
    unfold step
    simp only
    split <;> exact hg
  | send junk =>
    have hs' : (g.send junk).1 = none := hs
    show Good (g.send junk).2
    have hra : g.resetPtrs.attr = g.attr := by unfold Gpu.resetPtrs; cases g.ptrs <;> rfl
    unfold Gpu.send at hs' ⊢
    rcases hu : Gpu.upload names g.resetPtrs with ⟨_ | e, g1⟩
    · have hsucc := upload_success names g.resetPtrs (by rw [hu])
      obtain ⟨g1', p1, hu', R⟩ := upload_ok (fun n => (g.attr n).getD fun _ => 0) names names_nodup
        g.resetPtrs _ (wf_reset g wf) (reset_ptrs g) (by rw [hra]; exact hr)
        (fun n hn hnr => by
          obtain ⟨x, hx⟩ := hsucc n hn hnr
          rw [hra] at hx ⊢
          rw [hx]; rfl)
      rw [hu] at hu'
      obtain rfl : g1 = g1' := (Prod.mk.inj hu').2
      rw [hu] at hs'
      simp only at hs' ⊢
      have hall1 : ∀ n, isPtr n = true → n ≠ Name.residual → ∃ a, p1 n = some a := by
        intro n hn hnr
        obtain ⟨a, ha, _⟩ := R.new n (List.mem_filter.mpr ⟨mem_names n, by simpa using hnr⟩) hn
        exact ⟨a, ha⟩
      have hpr1 : p1 Name.residual = none := R.other _ (Or.inl (by decide))
      have harr1 : ∀ n a, p1 n = some a → ∃ x, (g1.cell a).val = .arr x := by
        intro n a ha
        by_cases hm : n ≠ Name.residual ∧ isPtr n = true
        · obtain ⟨b, hb, hrb⟩ := R.new n (List.mem_filter.mpr ⟨mem_names n, by simpa using hm.1⟩) hm.2
          rw [hb] at ha
          obtain rfl := Option.some.inj ha
          exact ⟨_, read_arr g1 _ _ hrb⟩
        · have hor : n ∉ names.filter (· ≠ Name.residual) ∨ isPtr n = false := by
            by_contra hc
            push Not at hc
            apply hm
            refine ⟨by simpa using (List.mem_filter.mp hc.1).2, by simpa using hc.2⟩
          rw [R.other n hor] at ha
          cases ha
      have hmid : ∀ gm, gm = (if g1.returnResidual then (g1.alloc (.arr junk)).bind Name.residual g1.next
          else g1) → ∃ q, gm.ptrs = some q ∧ WF gm ∧
          (∀ n, isPtr n = true → n ≠ Name.residual → ∃ a, q n = some a) ∧
          ∀ n a, q n = some a → ∃ x, (gm.cell a).val = .arr x := by
        rintro gm rfl
        split
        · obtain ⟨f1, f2, f3, f4, f5, f6, f7⟩ := allocBind_facts g1 p1 R.ptrs (R.wf.ptr_lt p1 R.ptrs)
            Name.residual junk
          refine ⟨_, f1, wf_allocBind g1 _ Name.residual (.arr junk) R.wf (fun k hk => hk.elim) p1 R.ptrs,
            ?_, ?_⟩
          · intro n hn hnr
            rw [Function.update_of_ne hnr]; exact hall1 n hn hnr
          · intro n a ha
            by_cases hn : n = Name.residual
            · rw [hn, Function.update_self] at ha
              obtain rfl := Option.some.inj ha
              exact ⟨junk, read_arr _ _ _ f6⟩
            · rw [Function.update_of_ne hn] at ha
              obtain ⟨x, hx⟩ := harr1 n a ha
              have hl := R.wf.live R.ptrs ha
              exact ⟨x, by rw [(f7 a hl (by rw [hpr1]; simp)).2]; exact hx⟩
        · exact ⟨p1, R.ptrs, R.wf, hall1, harr1⟩
      obtain ⟨q, hq, hwf, hall, harr⟩ := hmid _ rfl
      rcases hr2 : Gpu.sendStruct
        (if g1.returnResidual then (g1.alloc (.arr junk)).bind Name.residual g1.next else g1)
        with ⟨_ | e, g3⟩
      · have := good_sendStruct _ q hwf hq hall harr (by rw [hr2])
        rw [hr2] at this
        exact this
      · rw [hr2] at hs'; cases hs'
    · rw [hu] at hs'; cases hs'
  | swap =>
    have hs' : g.swap.1 = none := hs
    show Good g.swap.2
    unfold Gpu.swap at hs' ⊢
    cases hp : g.ptrs with
    | none => rw [hp] at hs'; cases hs'
    | some p =>
      rw [hp] at hs'
      simp only at hs' ⊢
      by_cases hres : (p Name.residual).isNone = true
      · rw [if_pos hres] at hs'; cases hs'
      · rw [if_neg hres] at hs' ⊢
        rcases hr1 : Gpu.replaceMeta metaNames g with ⟨_ | e, g1⟩
        · obtain ⟨g1', p1, r1, r2, r3, r4, r5, r6⟩ := replace_good g wf hg (by rw [hr1])
          rw [hr1] at r1 hs'
          obtain rfl : g1 = g1' := (Prod.mk.inj r1).2
          simp only at hs' ⊢
          have hrs : ∃ a, p1 Name.residual = some a := by
            rw [r5 p hp]
            cases hh : p Name.residual with
            | none => rw [hh] at hres; simp at hres
            | some a => exact ⟨a, rfl⟩
          have hq : (Gpu.ptrs { g1 with ptrs := g1.ptrs.map swapPtrs }) = some (swapPtrs p1) := by
            show g1.ptrs.map swapPtrs = _
            rw [r3]; rfl
          have hall : ∀ n, isPtr n = true → n ≠ Name.residual → ∃ a, swapPtrs p1 n = some a := by
            intro n hn hnr
            unfold swapPtrs
            by_cases hd : n = Name.data
            · rw [if_pos hd]; exact hrs
            · rw [if_neg hd, if_neg hnr]; exact r4 n hn hnr
          have harr : ∀ n a, swapPtrs p1 n = some a → ∃ x, (g1.cell a).val = .arr x := by
            intro n a ha
            unfold swapPtrs at ha
            split at ha
            · exact r6 _ a ha
            · split at ha
              · exact r6 _ a ha
              · exact r6 _ a ha
          rcases hr2 : Gpu.sendStruct { g1 with ptrs := g1.ptrs.map swapPtrs } with ⟨_ | e, g3⟩
          · have := good_sendStruct { g1 with ptrs := g1.ptrs.map swapPtrs } _ (wf_swapPtrs g1 r2) hq hall
              harr (by rw [hr2])
            rw [hr2] at this
            exact this
          · rw [hr2] at hs'; cases hs'
        · rw [hr1] at hs'; cases hs'
  | refresh =>
    have hs' : g.refresh.1 = none := hs
    show Good g.refresh.2
    unfold Gpu.refresh at hs' ⊢
    rcases hr1 : Gpu.replaceMeta metaNames g with ⟨_ | e, g1⟩
    · obtain ⟨g1', p1, r1, r2, r3, r4, r5, r6⟩ := replace_good g wf hg (by rw [hr1])
      rw [hr1] at r1 hs'
      obtain rfl : g1 = g1' := (Prod.mk.inj r1).2
      exact good_sendStruct g1 p1 r2 r3 r4 r6 hs'
    · rw [hr1] at hs'; cases hs'
  | evaluate m prop =>
    rcases hg with ⟨hn, hz⟩ | ⟨p, s, v, hp, hst, hv, hall, harr⟩
    · simp only [step, Gpu.evaluate, hn] at hs
      cases hs
    · unfold step Gpu.evaluate at hs ⊢
      simp only [hst] at hs ⊢
      have hls := wf.struct_live s hst
      rw [if_neg (by simpa using hls)] at hs ⊢
      rw [hv] at hs ⊢
      simp only at hs ⊢
      split at hs
      · cases hs
      · rename_i hany
        rw [if_neg hany]
        simp only [isPtr, if_true] at hs ⊢
        cases hres : p Name.residual with
        | none => exact Or.inr ⟨p, s, v, hp, hst, hv, hall, harr⟩
        | some r =>
          simp only
          rw [if_pos (wf.live hp hres)]
          right
          refine ⟨p, s, v, hp, hst, ?_, hall, ?_⟩
          · show (Function.update g.cell r _ s).val = _
            rw [Function.update_of_ne]
            · exact hv
            · rintro rfl
              exact wf.struct_sep _ p hst hp _ hres
          · intro n a ha
            show ∃ x, (Function.update g.cell r _ a).val = .arr x
            by_cases har : a = r
            · subst har
              rw [Function.update_self]
              exact ⟨_, rfl⟩
            · rw [Function.update_of_ne har]; exact harr n a ha
  | free =>
    left
    obtain ⟨f1, f2, f3⟩ := free_safe g wf
    refine ⟨?_, ?_⟩
    · by_contra hc
      obtain ⟨s, hs2⟩ := Option.ne_none_iff_exists'.mp hc
      exact f3 s (f2.struct_live s hs2)
    · intro p hp n
      by_contra hc
      obtain ⟨a, ha⟩ := Option.ne_none_iff_exists'.mp hc
      exact f3 a (f2.live hp ha)

lemma sendStruct_err (g : Gpu) : g.sendStruct.1 ≠ some .invalidAccess := by
  unfold Gpu.sendStruct
  cases g.ptrs with
  | none => simp
  | some p =>
    simp only
    split
    · simp
    · cases g.struct with
      | none => simp
      | some s =>
        simp only
        cases hf : g.freeCell s with
        | error e =>
          unfold Gpu.freeCell at hf
          split at hf
          · cases hf
          · cases hf; simp
        | ok g1 => simp

lemma upload_err (L : List Name) : ∀ g : Gpu, (Gpu.upload L g).1 ≠ some .invalidAccess := by
  induction L with
  | nil => intro g; simp [Gpu.upload]
  | cons n rest ih =>
    intro g
    unfold Gpu.upload
    cases g.attr n with
    | none =>
      simp only
      split
      · exact ih g
      · simp
    | some a =>
      simp only
      split
      · exact ih _
      · exact ih g

lemma replaceMeta_err (L : List Name) : ∀ g : Gpu, (Gpu.replaceMeta L g).1 ≠ some .invalidAccess := by
  induction L with
  | nil => intro g; simp [Gpu.replaceMeta]
  | cons n rest ih =>
    intro g
    unfold Gpu.replaceMeta
    cases g.attr n with
    | none => simp
    | some a =>
      simp only
      split
      · cases g.ptrs with
        | none => simp
        | some p =>
          simp only
          cases p n with
          | none => simp
          | some old =>
            simp only
            cases hf : g.freeCell old with
            | error e =>
              unfold Gpu.freeCell at hf
              split at hf
              · cases hf
              · cases hf; simp
            | ok g1 => exact ih _
      · exact ih g

lemma step_no_invalid (g : Gpu) (wf : WF g) (hg : Good g) (o : Op) :
    (step g o).1 ≠ some .invalidAccess := by
  cases o with
  | repack a => simp [step]
  | setFlags r d => simp [step]
  | send junk =>
    show (g.send junk).1 ≠ _
    have hu := upload_err names g.resetPtrs
    unfold Gpu.send
    rcases hr : Gpu.upload names g.resetPtrs with ⟨_ | e, g1⟩
    · simp only
      have hs := sendStruct_err
        (if g1.returnResidual then (g1.alloc (.arr junk)).bind Name.residual g1.next else g1)
      rcases hr2 : Gpu.sendStruct
        (if g1.returnResidual then (g1.alloc (.arr junk)).bind Name.residual g1.next else g1)
        with ⟨_ | e, g3⟩
      · simp
      · rw [hr2] at hs; exact hs
    · rw [hr] at hu; exact hu
  | swap =>
    show g.swap.1 ≠ _
    unfold Gpu.swap
    cases g.ptrs with
    | none => simp
    | some p =>
      simp only
      split
      · simp
      · have hm := replaceMeta_err metaNames g
        rcases hr1 : Gpu.replaceMeta metaNames g with ⟨_ | e, g1⟩
        · simp only
          have hs := sendStruct_err { g1 with ptrs := g1.ptrs.map swapPtrs }
          rcases hr2 : Gpu.sendStruct { g1 with ptrs := g1.ptrs.map swapPtrs } with ⟨_ | e, g3⟩
          · simp
          · rw [hr2] at hs; exact hs
        · rw [hr1] at hm; exact hm
  | refresh =>
    show g.refresh.1 ≠ _
    unfold Gpu.refresh
    have hm := replaceMeta_err metaNames g
    rcases hr1 : Gpu.replaceMeta metaNames g with ⟨_ | e, g1⟩
    · exact sendStruct_err g1
    · rw [hr1] at hm; exact hm
  | evaluate m prop =>
    rcases hg with ⟨hn, hz⟩ | ⟨p, s, v, hp, hst, hv, hall, harr⟩
    · simp [step, Gpu.evaluate, hn]
    · unfold step Gpu.evaluate
      simp only [hst]
      rw [if_neg (by simpa using wf.struct_live s hst), hv]
      simp only
      rw [if_neg ?_]
      · simp only [isPtr, if_true]
        cases hres : p Name.residual with
        | none => simp
        | some r =>
          simp only
          rw [if_pos (wf.live hp hres)]
          simp
      · simp only [List.any_eq_true, List.mem_filter, not_exists, not_and]
        rintro n ⟨_, hn⟩
        have hn' : n ≠ Name.residual := by simpa using hn
        unfold Gpu.deref
        by_cases hi : isPtr n = true
        · obtain ⟨a, ha⟩ := hall n hi hn'
          obtain ⟨x, hx⟩ := harr n a ha
          simp [hi, ha, arr_read g a x hx (wf.live hp ha)]
        · rw [if_neg hi]; simp
  | retrieve n =>
    have hne : g.retrieve n ≠ .error .invalidAccess := by
      unfold Gpu.retrieve
      cases hp : g.ptrs with
      | none => simp
      | some p =>
        simp only
        cases ha : p n with
        | none => simp
        | some a =>
          simp only
          rcases hg with ⟨_, hz⟩ | ⟨q, s, v, hq, hst, hv, hall, harr⟩
          · rw [hz p hp] at ha; cases ha
          · rw [hp] at hq
            obtain rfl := Option.some.inj hq
            obtain ⟨x, hx⟩ := harr n a ha
            rw [arr_read g a x hx (wf.live hp ha)]
            simp
    rcases hr : g.retrieve n with e | a
    · have : step g (.retrieve n) = (some e, g) := by simp only [step, hr]
      rw [this]
      intro hc
      exact hne (hr.trans (congrArg Except.error (Option.some.inj hc)))
    · have : step g (.retrieve n) = (none, g) := by simp only [step, hr]
      rw [this]; simp
  | free => rw [show step g .free = g.free from rfl, (free_safe g wf).1]; simp

lemma run_good (ops : List Op) : ∀ g : Gpu, WF g → g.attr Name.residual = none → Good g →
    (∀ r ∈ (run g ops).1, r = none) → Good (run g ops).2 ∧ WF (run g ops).2 := by
  induction ops with
  | nil => intro g wf _ hg _; exact ⟨hg, wf⟩
  | cons o rest ih =>
    intro g wf hr hg hall
    have h1 : (step g o).1 = none := hall _ List.mem_cons_self
    exact ih (step g o).2 (step_safe g wf o).2 (step_residual g o hr) (step_good g wf hr hg o h1)
      (fun r hr => hall r (List.mem_cons_of_mem _ hr))

/-- C48 (no use after free). As long as no operation has raised, no operation, and in particular no
kernel call and no retrieval, touches a buffer that is not allocated. -/
theorem C48_no_invalid_access (ops : List Op) (h : ∀ r ∈ (run fresh ops).1, r = none) (o : Op) :
    (step (run fresh ops).2 o).1 ≠ some .invalidAccess := by
  obtain ⟨h1, h2⟩ := run_good ops fresh wf_fresh rfl (Or.inl ⟨rfl, fun p hp => by cases hp⟩) h
  exact step_no_invalid _ h2 h1 o

/-- The hypothesis of `C48_no_invalid_access` holds for a history with sends, swaps, kernel calls and
a free. -/
example : ∀ r ∈ (run fresh
    [.repack exAttr, .setFlags true false, .send exJunk, .evaluate exKernel exJunk, .swap, .evaluate exKernel exJunk,
      .refresh, .retrieve Name.data, .free]).1, r = none := by
  have : (run fresh
    [.repack exAttr, .setFlags true false, .send exJunk, .evaluate exKernel exJunk, .swap, .evaluate exKernel exJunk,
      .refresh, .retrieve Name.data, .free]).1 = List.replicate 9 none := by decide +kernel
  intro r hr
  rw [this] at hr
  exact List.eq_of_mem_replicate hr

/-- Without that hypothesis it fails: a send that raises half way (because the metadata were cleared)
releases the arrays the old structure still points to; a kernel call then reads released memory. -/
theorem C48_failed_send :
    (run fresh [.repack exAttr, .send exJunk, .repack fun _ => none, .send exJunk, .evaluate exKernel exJunk]).1 =
      [none, none, none, some .attributeError, some .invalidAccess] := by
  decide +kernel

end Forcepho.Device

namespace Forcepho.Kernel

/-! ## Blocks of sources and the kernel (C47) -/

/-- What the kernel forms for a block of sources packed on their own, each with its own astrometric
coefficients (patch.py:243-273 repacks the astrometry of the block, sources numbered from zero). -/
noncomputable def blockGauss (band : Nat) (e : Exposure) (b : List (Astrom × Source)) : List ImGauss :=
  createImageGaussians band { e with astrom := fun g => (b[g]?.map Prod.fst).getD (e.astrom g) } b.length
    fun g => (b[g]?.map Prod.snd).getD ⟨0, 0, 0, 0, fun _ => 0, fun _ => 0, fun _ => 0, fun _ => 0⟩

lemma blockGauss_eq (band : Nat) (e : Exposure) (b : List (Astrom × Source)) :
    blockGauss band e b = (b.map fun x => e.psfs.map fun p =>
      getGaussianAndJacobian (pixGauss band e x.1 x.2 p) p).flatten := by
  unfold blockGauss createImageGaussians
  congr 1
  apply List.ext_getElem
  · simp
  · intro i h1 h2
    have hi : i < b.length := by simpa using h2
    rw [List.getElem_map, List.getElem_map, List.getElem_range]
    simp only [sourceGauss, imGauss, List.getElem?_eq_getElem hi, Option.map_some, Option.getD_some]
    rfl

/-- C47 (kernel). The residual of a pixel after subtracting the blocks one after the other, each
starting from the residual of the one before, is the residual of evaluating all their sources at
once, however the sources are cut into blocks. -/
theorem C47_kernel_blocks (band : Nat) (e : Exposure) (x y data : ℝ)
    (bs : List (List (Astrom × Source))) :
    bs.foldl (fun r b => computeResidual x y r (blockGauss band e b)) data =
      computeResidual x y data (blockGauss band e bs.flatten) := by
  induction bs generalizing data with
  | nil => rfl
  | cons b rest ih =>
    rw [List.foldl_cons, ih, blockGauss_eq, blockGauss_eq, blockGauss_eq, List.flatten_cons,
      List.map_append, List.flatten_append]
    unfold computeResidual
    rw [List.foldl_append]

/-- The subtracted image is the sum over the sources, so it does not depend on the other sources. -/
theorem C47_kernel_sum (band : Nat) (e : Exposure) (x y data : ℝ) (b : List (Astrom × Source)) :
    computeResidual x y data (blockGauss band e b) =
      data - (b.map fun s => -computeResidual x y 0 (blockGauss band e [s])).sum := by
  rw [computeResidual_eq, blockGauss_eq]
  congr 1
  induction b with
  | nil => simp
  | cons s rest ih =>
    rw [List.map_cons, List.flatten_cons, List.map_append, List.sum_append, ih, List.map_cons,
      List.sum_cons, computeResidual_eq, blockGauss_eq]
    simp

end Forcepho.Kernel
