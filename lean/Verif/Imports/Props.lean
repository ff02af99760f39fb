import Verif.Imports.Texts

/-!
# C159: which modules can be imported

`CanBind` says which names a module can ever have, independently of any order of execution.
-/

set_option autoImplicit false

namespace Forcepho.Imports

/-- The names a statement binds itself, at most. -/
def directNames : Stmt → List String
  | .bind xs => xs
  | .setAll _ => ["__all__"]
  | .ext _ xs => xs
  | .attempt is h => is.flatMap (·.2) ++ h
  | .frm _ xs => xs.map (·.2)
  | .star _ => []

/-- The names a module can have: those its own statements bind, those of the modules it imports `*` from, and its
submodules. -/
inductive CanBind (tbl : Table) : Path → String → Prop where
  | own (p : Path) (t : Text) (st : Stmt) (x : String) (ht : text tbl p = some t) (hst : st ∈ t)
      (hx : x ∈ directNames st) : CanBind tbl p x
  | star (p m : Path) (t : Text) (x : String) (ht : text tbl p = some t) (hst : Stmt.star m ∈ t)
      (hx : CanBind tbl m x) : CanBind tbl p x
  | sub (p : Path) (x : String) (hx : (text tbl (p ++ [x])).isSome = true) : CanBind tbl p x

/-- Everything a statement asks of modules of the repository can be there. -/
def Answerable (tbl : Table) : Stmt → Prop
  | .frm m xs => ∀ x ∈ xs, CanBind tbl m x.1
  | _ => True

/-- What holds of `sys.modules` at any time: modules have names they can have, and those not in `stack` (being imported) found
everything their texts ask for. -/
def Good (tbl : Table) (stack : List Path) (s : State) : Prop :=
  (∀ e ∈ s, ∀ x ∈ e.2.names, CanBind tbl e.1 x) ∧
  (∀ e ∈ s, e.1 ∈ stack ∨ ∃ t, text tbl e.1 = some t ∧ ∀ st ∈ t, Answerable tbl st)

theorem entry_mem (s : State) (p : Path) (md : Mod) (h : entry s p = some md) : (p, md) ∈ s := by
  unfold entry at h
  cases hf : s.find? fun e => e.1 == p with
  | none => rw [hf] at h; cases h
  | some e =>
    rw [hf] at h
    injection h with h
    have h1 := List.find?_some hf
    have h2 := List.mem_of_find?_eq_some hf
    simp only [beq_iff_eq] at h1
    rw [← h1, ← h]
    exact h2

theorem bindIn_good (tbl : Table) (stack : List Path) (p : Path) (xs : List String) (s : State) (h : Good tbl stack s)
    (hx : ∀ x ∈ xs, CanBind tbl p x) : Good tbl stack (bindIn p xs s) := by
  refine ⟨?_, ?_⟩
  · intro e he x hxe
    obtain ⟨e', he', rfl⟩ := List.mem_map.1 he
    by_cases hp : e'.1 == p
    · rw [if_pos hp] at hxe ⊢
      rcases List.mem_append.1 hxe with hh | hh
      · exact h.1 e' he' x hh
      · have : e'.1 = p := by simpa using hp
        simp only [this]
        exact hx x hh
    · rw [if_neg hp] at hxe ⊢
      exact h.1 e' he' x hxe
  · intro e he
    obtain ⟨e', he', rfl⟩ := List.mem_map.1 he
    by_cases hp : e'.1 == p
    · rw [if_pos hp]; exact h.2 e' he'
    · rw [if_neg hp]; exact h.2 e' he'

theorem setAllIn_good (tbl : Table) (stack : List Path) (p : Path) (xs : List String) (s : State) (h : Good tbl stack s)
    (hx : CanBind tbl p "__all__") : Good tbl stack (setAllIn p xs s) := by
  refine ⟨?_, ?_⟩
  · intro e he x hxe
    obtain ⟨e', he', rfl⟩ := List.mem_map.1 he
    by_cases hp : e'.1 == p
    · rw [if_pos hp] at hxe ⊢
      rcases List.mem_append.1 hxe with hh | hh
      · exact h.1 e' he' x hh
      · have : e'.1 = p := by simpa using hp
        simp only [this]
        rw [List.mem_singleton.1 hh]
        exact hx
    · rw [if_neg hp] at hxe ⊢
      exact h.1 e' he' x hxe
  · intro e he
    obtain ⟨e', he', rfl⟩ := List.mem_map.1 he
    by_cases hp : e'.1 == p
    · rw [if_pos hp]; exact h.2 e' he'
    · rw [if_neg hp]; exact h.2 e' he'

/-- What is needed of the loader of nested imports. -/
def LoaderGood (tbl : Table) (ld : Loader) : Prop :=
  ∀ (stack : List Path) (p : Path) (s s' : State), Good tbl stack s → ld p s = .ok s' → Good tbl stack s'

theorem getNames_good (tbl : Table) (ld : Loader) (hld : LoaderGood tbl ld) (stack : List Path) (m : Path) :
    ∀ (xs : List String) (s s' : State), Good tbl stack s → getNames tbl ld m xs s = .ok s' →
      Good tbl stack s' ∧ ∀ x ∈ xs, CanBind tbl m x := by
  intro xs
  induction xs with
  | nil =>
    intro s s' h hs
    injection hs with hs
    rw [← hs]
    exact ⟨h, by simp⟩
  | cons x xs ih =>
    intro s s' h hs
    simp only [getNames] at hs
    cases hg : getName tbl ld m x s with
    | error e => rw [hg] at hs; cases hs
    | ok s1 =>
      rw [hg] at hs
      have h1 : Good tbl stack s1 ∧ CanBind tbl m x := by
        unfold getName at hg
        cases he : entry s m with
        | none => rw [he] at hg; cases hg
        | some md =>
          rw [he] at hg
          simp only at hg
          by_cases hc : md.names.contains x = true
          · rw [if_pos hc] at hg
            injection hg with hg
            rw [← hg]
            exact ⟨h, h.1 _ (entry_mem s m md he) x (by simpa using hc)⟩
          · rw [if_neg hc] at hg
            by_cases ht : (text tbl (m ++ [x])).isSome = true
            · rw [if_pos ht] at hg
              exact ⟨hld stack _ s s1 h hg, .sub m x ht⟩
            · rw [if_neg ht] at hg; cases hg
      obtain ⟨h2, h3⟩ := ih s1 s' h1.1 hs
      refine ⟨h2, ?_⟩
      intro y hy
      rcases List.mem_cons.1 hy with rfl | hy
      · exact h1.2
      · exact h3 y hy

theorem attemptNames_sub (ext : String → Bool) (is : List (String × List String)) (h : List String) (x : String)
    (hx : x ∈ attemptNames ext is h) : x ∈ is.flatMap (·.2) ++ h := by
  induction is with
  | nil => simp [attemptNames] at hx
  | cons i is ih =>
    obtain ⟨m, xs⟩ := i
    unfold attemptNames at hx
    split at hx
    · rcases List.mem_append.1 hx with hx | hx
      · simp [hx]
      · have := ih hx
        simp only [List.flatMap_cons, List.append_assoc, List.mem_append] at this ⊢
        exact Or.inr this
    · simp [hx]

theorem exec_good (tbl : Table) (ext : String → Bool) (ld : Loader) (hld : LoaderGood tbl ld) (stack : List Path) (p : Path)
    (t : Text) (ht : text tbl p = some t) (st : Stmt) (hst : st ∈ t) (s s' : State) (h : Good tbl stack s)
    (hs : exec tbl ext ld p st s = .ok s') : Good tbl stack s' ∧ Answerable tbl st := by
  cases st with
  | bind xs =>
    simp only [exec] at hs
    injection hs with hs
    rw [← hs]
    exact ⟨bindIn_good tbl stack p xs s h fun x hx => .own p t _ x ht hst hx, trivial⟩
  | setAll xs =>
    simp only [exec] at hs
    injection hs with hs
    rw [← hs]
    exact ⟨setAllIn_good tbl stack p xs s h (.own p t _ _ ht hst (by simp [directNames])), trivial⟩
  | ext m xs =>
    simp only [exec] at hs
    by_cases he : ext m = true
    · rw [if_pos he] at hs
      injection hs with hs
      rw [← hs]
      exact ⟨bindIn_good tbl stack p xs s h fun x hx => .own p t _ x ht hst hx, trivial⟩
    · rw [if_neg he] at hs; cases hs
  | attempt is hd =>
    simp only [exec] at hs
    injection hs with hs
    rw [← hs]
    exact ⟨bindIn_good tbl stack p _ s h fun x hx => .own p t _ x ht hst (attemptNames_sub ext is hd x hx), trivial⟩
  | frm m xs =>
    simp only [exec] at hs
    cases hl : ld m s with
    | error e => rw [hl] at hs; cases hs
    | ok s1 =>
      rw [hl] at hs
      simp only at hs
      cases hg : getNames tbl ld m (xs.map (·.1)) s1 with
      | error e => rw [hg] at hs; cases hs
      | ok s2 =>
        rw [hg] at hs
        injection hs with hs
        obtain ⟨h2, h3⟩ := getNames_good tbl ld hld stack m _ s1 s2 (hld stack m s s1 h hl) hg
        rw [← hs]
        refine ⟨bindIn_good tbl stack p _ s2 h2 fun x hx => .own p t _ x ht hst hx, ?_⟩
        intro x hx
        exact h3 x.1 (List.mem_map.2 ⟨x, hx, rfl⟩)
  | star m =>
    simp only [exec] at hs
    cases hl : ld m s with
    | error e => rw [hl] at hs; cases hs
    | ok s1 =>
      rw [hl] at hs
      simp only at hs
      have h1 := hld stack m s s1 h hl
      cases he : entry s1 m with
      | none => rw [he] at hs; cases hs
      | some md =>
        rw [he] at hs
        simp only at hs
        cases ha : md.all with
        | none =>
          rw [ha] at hs
          injection hs with hs
          rw [← hs]
          refine ⟨bindIn_good tbl stack p _ s1 h1 fun x hx => .star p m t x ht hst ?_, trivial⟩
          exact h1.1 _ (entry_mem s1 m md he) x (List.mem_filter.1 hx).1
        | some xs =>
          rw [ha] at hs
          simp only at hs
          cases hg : getNames tbl ld m xs s1 with
          | error e => rw [hg] at hs; cases hs
          | ok s2 =>
            rw [hg] at hs
            injection hs with hs
            obtain ⟨h2, h3⟩ := getNames_good tbl ld hld stack m _ s1 s2 h1 hg
            rw [← hs]
            exact ⟨bindIn_good tbl stack p _ s2 h2 fun x hx => .star p m t x ht hst (h3 x hx), trivial⟩

theorem execAll_good (tbl : Table) (ext : String → Bool) (ld : Loader) (hld : LoaderGood tbl ld) (stack : List Path) (p : Path)
    (t : Text) (ht : text tbl p = some t) : ∀ (u : Text), (∀ st ∈ u, st ∈ t) → ∀ (s s' : State), Good tbl stack s →
      execAll tbl ext ld p u s = .ok s' → Good tbl stack s' ∧ ∀ st ∈ u, Answerable tbl st := by
  intro u
  induction u with
  | nil =>
    intro _ s s' h hs
    injection hs with hs
    rw [← hs]
    exact ⟨h, by simp⟩
  | cons st u ih =>
    intro hu s s' h hs
    simp only [execAll] at hs
    cases he : exec tbl ext ld p st s with
    | error e => rw [he] at hs; cases hs
    | ok s1 =>
      rw [he] at hs
      obtain ⟨h1, h2⟩ := exec_good tbl ext ld hld stack p t ht st (hu st (by simp)) s s1 h he
      obtain ⟨h3, h4⟩ := ih (fun st hst => hu st (List.mem_cons_of_mem _ hst)) s1 s' h1 hs
      refine ⟨h3, ?_⟩
      intro k hk
      rcases List.mem_cons.1 hk with rfl | hk
      · exact h2
      · exact h4 k hk

theorem dropLast_concat (p : Path) (x : String) (h : p.getLast? = some x) : p.dropLast ++ [x] = p := by
  have hne : p ≠ [] := by intro h0; rw [h0] at h; cases h
  rw [List.getLast?_eq_some_getLast hne] at h
  injection h with h
  rw [← h]
  exact List.dropLast_concat_getLast hne

theorem load_good (tbl : Table) (ext : String → Bool) (n : Nat) : LoaderGood tbl (load tbl ext n) := by
  induction n with
  | zero => intro stack p s s' _ h; cases h
  | succ n ih =>
    intro stack p s s' h hs
    simp only [load] at hs
    by_cases he : (entry s p).isSome = true
    · rw [if_pos he] at hs
      injection hs with hs
      rw [← hs]; exact h
    rw [if_neg he] at hs
    cases hp : loadParent (load tbl ext n) p s with
    | error e => rw [hp] at hs; cases hs
    | ok s1 =>
      rw [hp] at hs
      simp only at hs
      have h1 : Good tbl stack s1 := by
        unfold loadParent at hp
        by_cases hd : p.dropLast = []
        · rw [if_pos hd] at hp
          injection hp with hp
          rw [← hp]; exact h
        · rw [if_neg hd] at hp
          exact ih stack _ s s1 h hp
      by_cases he1 : (entry s1 p).isSome = true
      · rw [if_pos he1] at hs
        injection hs with hs
        rw [← hs]; exact h1
      rw [if_neg he1] at hs
      cases ht : text tbl p with
      | none => rw [ht] at hs; cases hs
      | some t =>
        rw [ht] at hs
        simp only at hs
        cases hx : execAll tbl ext (load tbl ext n) p t (s1 ++ [(p, ⟨[], none⟩)]) with
        | error e => rw [hx] at hs; cases hs
        | ok s2 =>
          rw [hx] at hs
          injection hs with hs
          have h0 : Good tbl (p :: stack) (s1 ++ [(p, ⟨[], none⟩)]) := by
            refine ⟨?_, ?_⟩
            · intro e he x hxe
              rcases List.mem_append.1 he with he | he
              · exact h1.1 e he x hxe
              · rw [List.mem_singleton.1 he] at hxe
                simp at hxe
            · intro e he
              rcases List.mem_append.1 he with he | he
              · rcases h1.2 e he with h | h
                · exact Or.inl (List.mem_cons_of_mem _ h)
                · exact Or.inr h
              · rw [List.mem_singleton.1 he]
                exact Or.inl (by simp)
          obtain ⟨h2, h3⟩ := execAll_good tbl ext _ ih (p :: stack) p t ht t (fun _ h => h) _ s2 h0 hx
          have h4 : Good tbl stack s2 := by
            refine ⟨h2.1, ?_⟩
            intro e he
            rcases h2.2 e he with h | h
            · rcases List.mem_cons.1 h with h | h
              · exact Or.inr ⟨t, by rw [h]; exact ht, h3⟩
              · exact Or.inl h
            · exact Or.inr h
          rw [← hs]
          unfold bindParent
          cases hl : p.getLast? with
          | none => exact h4
          | some x =>
            simp only
            by_cases hd : p.dropLast = []
            · rw [if_pos hd]; exact h4
            · rw [if_neg hd]
              apply bindIn_good tbl stack _ _ s2 h4
              intro y hy
              rw [List.mem_singleton.1 hy]
              apply CanBind.sub
              rw [dropLast_concat p x hl, ht]
              rfl

theorem bindIn_paths (p q : Path) (xs : List String) (s : State) :
    (∃ md, (q, md) ∈ bindIn p xs s) ↔ ∃ md, (q, md) ∈ s := by
  unfold bindIn
  constructor
  · rintro ⟨md, h⟩
    obtain ⟨e, he, hq⟩ := List.mem_map.1 h
    by_cases hp : e.1 == p
    · rw [if_pos hp] at hq
      exact ⟨e.2, by rw [show q = e.1 by rw [← (Prod.mk.inj hq).1]]; exact he⟩
    · rw [if_neg hp] at hq
      exact ⟨md, hq ▸ he⟩
  · rintro ⟨md, h⟩
    by_cases hp : q == p
    · exact ⟨_, List.mem_map.2 ⟨(q, md), h, by rw [if_pos hp]⟩⟩
    · exact ⟨md, List.mem_map.2 ⟨(q, md), h, by rw [if_neg hp]⟩⟩

theorem setAllIn_paths (p q : Path) (xs : List String) (s : State) (h : ∃ md, (q, md) ∈ s) :
    ∃ md, (q, md) ∈ setAllIn p xs s := by
  obtain ⟨md, h⟩ := h
  unfold setAllIn
  by_cases hp : q == p
  · exact ⟨_, List.mem_map.2 ⟨(q, md), h, by rw [if_pos hp]⟩⟩
  · exact ⟨md, List.mem_map.2 ⟨(q, md), h, by rw [if_neg hp]⟩⟩

/-- The loader forgets no module. -/
def LoaderKeeps (ld : Loader) : Prop :=
  ∀ (q p : Path) (s s' : State), ld p s = .ok s' → (∃ md, (q, md) ∈ s) → ∃ md, (q, md) ∈ s'

theorem getNames_keeps (tbl : Table) (ld : Loader) (hld : LoaderKeeps ld) (q m : Path) :
    ∀ (xs : List String) (s s' : State), getNames tbl ld m xs s = .ok s' → (∃ md, (q, md) ∈ s) → ∃ md, (q, md) ∈ s' := by
  intro xs
  induction xs with
  | nil => intro s s' h hq; injection h with h; rw [← h]; exact hq
  | cons x xs ih =>
    intro s s' hs hq
    simp only [getNames] at hs
    cases hg : getName tbl ld m x s with
    | error e => rw [hg] at hs; cases hs
    | ok s1 =>
      rw [hg] at hs
      apply ih s1 s' hs
      unfold getName at hg
      cases he : entry s m with
      | none => rw [he] at hg; cases hg
      | some md =>
        rw [he] at hg
        simp only at hg
        split at hg
        · injection hg with hg; rw [← hg]; exact hq
        · split at hg
          · exact hld q _ s s1 hg hq
          · cases hg

theorem exec_keeps (tbl : Table) (ext : String → Bool) (ld : Loader) (hld : LoaderKeeps ld) (q p : Path) (st : Stmt)
    (s s' : State) (hs : exec tbl ext ld p st s = .ok s') (hq : ∃ md, (q, md) ∈ s) : ∃ md, (q, md) ∈ s' := by
  cases st with
  | bind xs => injection hs with hs; rw [← hs]; exact (bindIn_paths p q xs s).2 hq
  | setAll xs => injection hs with hs; rw [← hs]; exact setAllIn_paths p q xs s hq
  | ext m xs =>
    simp only [exec] at hs
    split at hs
    · injection hs with hs; rw [← hs]; exact (bindIn_paths p q xs s).2 hq
    · cases hs
  | attempt is h => injection hs with hs; rw [← hs]; exact (bindIn_paths p q _ s).2 hq
  | frm m xs =>
    simp only [exec] at hs
    cases hl : ld m s with
    | error e => rw [hl] at hs; cases hs
    | ok s1 =>
      rw [hl] at hs
      simp only at hs
      cases hg : getNames tbl ld m (xs.map (·.1)) s1 with
      | error e => rw [hg] at hs; cases hs
      | ok s2 =>
        rw [hg] at hs
        injection hs with hs
        rw [← hs]
        exact (bindIn_paths p q _ s2).2 (getNames_keeps tbl ld hld q m _ s1 s2 hg (hld q m s s1 hl hq))
  | star m =>
    simp only [exec] at hs
    cases hl : ld m s with
    | error e => rw [hl] at hs; cases hs
    | ok s1 =>
      rw [hl] at hs
      simp only at hs
      have h1 := hld q m s s1 hl hq
      cases he : entry s1 m with
      | none => rw [he] at hs; cases hs
      | some md =>
        rw [he] at hs
        simp only at hs
        cases ha : md.all with
        | none =>
          rw [ha] at hs
          injection hs with hs
          rw [← hs]
          exact (bindIn_paths p q _ s1).2 h1
        | some xs =>
          rw [ha] at hs
          simp only at hs
          cases hg : getNames tbl ld m xs s1 with
          | error e => rw [hg] at hs; cases hs
          | ok s2 =>
            rw [hg] at hs
            injection hs with hs
            rw [← hs]
            exact (bindIn_paths p q _ s2).2 (getNames_keeps tbl ld hld q m _ s1 s2 hg h1)

theorem execAll_keeps (tbl : Table) (ext : String → Bool) (ld : Loader) (hld : LoaderKeeps ld) (q p : Path) :
    ∀ (u : Text) (s s' : State), execAll tbl ext ld p u s = .ok s' → (∃ md, (q, md) ∈ s) → ∃ md, (q, md) ∈ s' := by
  intro u
  induction u with
  | nil => intro s s' h hq; injection h with h; rw [← h]; exact hq
  | cons st u ih =>
    intro s s' hs hq
    simp only [execAll] at hs
    cases he : exec tbl ext ld p st s with
    | error e => rw [he] at hs; cases hs
    | ok s1 =>
      rw [he] at hs
      exact ih s1 s' hs (exec_keeps tbl ext ld hld q p st s s1 he hq)

/-- After an import the module is in `sys.modules`, and so is every module that was. -/
theorem load_keeps (tbl : Table) (ext : String → Bool) (n : Nat) :
    LoaderKeeps (load tbl ext n) ∧
    ∀ (p : Path) (s s' : State), load tbl ext n p s = .ok s' → ∃ md, (p, md) ∈ s' := by
  induction n with
  | zero =>
    refine ⟨?_, ?_⟩
    · intro q p s s' h
      cases h
    · intro p s s' h
      cases h
  | succ n ih =>
    have key : ∀ (p : Path) (s s' : State), load tbl ext (n + 1) p s = .ok s' →
        (∃ md, (p, md) ∈ s') ∧ ∀ q, (∃ md, (q, md) ∈ s) → ∃ md, (q, md) ∈ s' := by
      intro p s s' hs
      simp only [load] at hs
      have hin : ∀ s : State, (entry s p).isSome = true → ∃ md, (p, md) ∈ s := by
        intro s h
        obtain ⟨md, hmd⟩ := Option.isSome_iff_exists.1 h
        exact ⟨md, entry_mem s p md hmd⟩
      by_cases he : (entry s p).isSome = true
      · rw [if_pos he] at hs
        injection hs with hs
        rw [← hs]; exact ⟨hin s he, fun _ h => h⟩
      rw [if_neg he] at hs
      cases hp : loadParent (load tbl ext n) p s with
      | error e => rw [hp] at hs; cases hs
      | ok s1 =>
        rw [hp] at hs
        simp only at hs
        have h1 : ∀ q, (∃ md, (q, md) ∈ s) → ∃ md, (q, md) ∈ s1 := by
          intro q hq
          unfold loadParent at hp
          split at hp
          · injection hp with hp; rw [← hp]; exact hq
          · exact ih.1 q _ s s1 hp hq
        by_cases he1 : (entry s1 p).isSome = true
        · rw [if_pos he1] at hs
          injection hs with hs
          rw [← hs]; exact ⟨hin s1 he1, h1⟩
        rw [if_neg he1] at hs
        cases ht : text tbl p with
        | none => rw [ht] at hs; cases hs
        | some t =>
          rw [ht] at hs
          simp only at hs
          cases hx : execAll tbl ext (load tbl ext n) p t (s1 ++ [(p, ⟨[], none⟩)]) with
          | error e => rw [hx] at hs; cases hs
          | ok s2 =>
            rw [hx] at hs
            injection hs with hs
            have h2 : ∀ q, (∃ md, (q, md) ∈ s1 ++ [(p, (⟨[], none⟩ : Mod))]) → ∃ md, (q, md) ∈ s' := by
              intro q hq
              have h3 := execAll_keeps tbl ext _ ih.1 q p t _ s2 hx hq
              rw [← hs]
              unfold bindParent
              split
              · exact h3
              · split
                · exact h3
                · exact (bindIn_paths _ q _ s2).2 h3
            refine ⟨h2 p ⟨⟨[], none⟩, by simp⟩, ?_⟩
            intro q hq
            obtain ⟨md, hmd⟩ := h1 q hq
            exact h2 q ⟨md, List.mem_append.2 (Or.inl hmd)⟩
    exact ⟨fun q p s s' h hq => (key p s s' h).2 q hq, fun p s s' h => (key p s s' h).1⟩

/-! ## C159 -/

/-- C159 (invariant). Starting from an empty session, any sequence of successful imports keeps: every module has only names
it can have, and every module imported found everything its text asks for. -/
theorem C159_session (tbl : Table) (ext : String → Bool) (n : Nat) (ps : List Path) :
    Good tbl [] [] ∧ ∀ s s' : State, Good tbl [] s →
      ps.foldlM (fun s p => load tbl ext n p s) s = Except.ok s' → Good tbl [] s' := by
  refine ⟨⟨by simp, by simp⟩, ?_⟩
  induction ps with
  | nil => intro s s' h hs; injection hs with hs; rw [← hs]; exact h
  | cons p ps ih =>
    intro s s' h hs
    rw [List.foldlM_cons] at hs
    cases hl : load tbl ext n p s with
    | error e => rw [hl] at hs; cases hs
    | ok s1 =>
      rw [hl] at hs
      exact ih s1 s' (load_good tbl ext n [] p s s1 h hl) hs

/-- C159 (what an import needs). If a module can be imported, in whatever session, then its text can be found and
every name it takes by `from m import x` is one `m` can have. -/
theorem C159_needs (tbl : Table) (ext : String → Bool) (n : Nat) (p : Path) (s s' : State) (h : Good tbl [] s)
    (hs : load tbl ext n p s = .ok s') :
    ∃ t, text tbl p = some t ∧ ∀ (m : Path) (xs : List (String × String)), Stmt.frm m xs ∈ t → ∀ x ∈ xs, CanBind tbl m x.1 := by
  have h' := load_good tbl ext n [] p s s' h hs
  obtain ⟨md, hmd⟩ := (load_keeps tbl ext n).2 p s s' hs
  rcases h'.2 _ hmd with h0 | ⟨t, ht, ha⟩
  · simp at h0
  · exact ⟨t, ht, fun m xs hm => ha _ hm⟩

/-- A check that a module cannot have a name: not bound by its statements, not a submodule, and not in the modules it
imports `*` from. -/
def cannot (tbl : Table) : Nat → Path → String → Bool
  | 0, _, _ => false
  | n + 1, p, x =>
    (text tbl (p ++ [x])).isNone &&
    match text tbl p with
    | none => true
    | some t => !(t.flatMap directNames).contains x &&
        t.all fun st => match st with
          | .star m => cannot tbl n m x
          | _ => true

theorem cannot_sound (tbl : Table) (n : Nat) (p : Path) (x : String) (h : cannot tbl n p x = true) :
    ¬ CanBind tbl p x := by
  intro hc
  induction hc generalizing n with
  | own p t st x ht hst hx =>
    cases n with
    | zero => cases h
    | succ n =>
      simp only [cannot, ht, Bool.and_eq_true, Bool.not_eq_true'] at h
      have := h.2.1
      simp only [List.contains_eq_mem, decide_eq_false_iff_not] at this
      exact this (List.mem_flatMap.2 ⟨st, hst, hx⟩)
  | star p m t x ht hst hx ih =>
    cases n with
    | zero => cases h
    | succ n =>
      simp only [cannot, ht, Bool.and_eq_true] at h
      have := List.all_eq_true.1 h.2.2 _ hst
      exact ih n this
  | sub p x hx =>
    cases n with
    | zero => cases h
    | succ n =>
      simp only [cannot, Bool.and_eq_true] at h
      have := h.1
      rw [Option.isNone_iff_eq_none] at this
      rw [this] at hx
      cases hx

/-- A module whose text asks for a name that is not there can never be imported. -/
theorem load_fails (tbl : Table) (ext : String → Bool) (n : Nat) (p m : Path) (x : String) (s s' : State)
    (h : Good tbl [] s) (t : Text) (ht : text tbl p = some t) (xs : List (String × String)) (hm : Stmt.frm m xs ∈ t)
    (y : String) (hx : (x, y) ∈ xs) (k : Nat) (hc : cannot tbl k m x = true) : load tbl ext n p s ≠ .ok s' := by
  intro hs
  obtain ⟨t', ht', hall⟩ := C159_needs tbl ext n p s s' h hs
  rw [ht] at ht'
  injection ht' with ht'
  subst ht'
  exact cannot_sound tbl k m x hc (hall m xs hm _ hx)

theorem entry_bindIn (p : Path) (xs : List String) (s : State) (md : Mod) (h : entry s p = some md) :
    entry (bindIn p xs s) p = some ⟨md.names ++ xs, md.all⟩ := by
  induction s with
  | nil => cases h
  | cons e s ih =>
    unfold entry bindIn at *
    rw [List.map_cons]
    by_cases he : e.1 == p
    · rw [if_pos he, List.find?_cons_of_pos (by exact he)]
      rw [List.find?_cons_of_pos (by exact he)] at h
      simp only [Option.map_some, Option.some.injEq] at h ⊢
      rw [h]
    · rw [if_neg he, List.find?_cons_of_neg (by exact he)]
      rw [List.find?_cons_of_neg (by exact he)] at h
      exact ih h

theorem attemptNames_all (ext : String → Bool) (h : List String) (is : List (String × List String))
    (ha : ∀ i ∈ is, i.1 = "" ∨ ext i.1 = true) : attemptNames ext is h = is.flatMap (·.2) := by
  induction is with
  | nil => rfl
  | cons i is ih =>
    rw [attemptNames, if_pos, ih (fun j hj => ha j (by simp [hj])), List.flatMap_cons]
    rcases ha i (by simp) with h | h <;> simp [h]

theorem attemptNames_stop (ext : String → Bool) (h : List String) (is js : List (String × List String)) (m : String)
    (xs : List String) (ha : ∀ i ∈ is, i.1 = "" ∨ ext i.1 = true) (hm : m ≠ "") (he : ext m = false) :
    attemptNames ext (is ++ (m, xs) :: js) h = is.flatMap (·.2) ++ h := by
  induction is with
  | nil => rw [List.nil_append, attemptNames, if_neg (by simp [hm, he])]; rfl
  | cons i is ih =>
    rw [List.cons_append, attemptNames, if_pos, ih (fun j hj => ha j (by simp [hj])), List.flatMap_cons, List.append_assoc]
    rcases ha i (by simp) with h | h <;> simp [h]

/-- C159 (statements). Imports under `try` bind all names when all packages are installed; otherwise those before the first
package missing, and the names of the handler. `from m import *` of a module without `__all__` takes the names that do not
begin with an underscore. -/
theorem C159_statements (tbl : Table) (ext : String → Bool) (ld : Loader) (p : Path) (s : State) (md : Mod)
    (hp : entry s p = some md) :
    (∀ (is : List (String × List String)) (h : List String), (∀ i ∈ is, i.1 = "" ∨ ext i.1 = true) →
      ∃ s', exec tbl ext ld p (.attempt is h) s = .ok s' ∧ entry s' p = some ⟨md.names ++ is.flatMap (·.2), md.all⟩) ∧
    (∀ (is js : List (String × List String)) (m : String) (xs h : List String), (∀ i ∈ is, i.1 = "" ∨ ext i.1 = true) →
      m ≠ "" → ext m = false → ∃ s', exec tbl ext ld p (.attempt (is ++ (m, xs) :: js) h) s = .ok s' ∧
        entry s' p = some ⟨md.names ++ (is.flatMap (·.2) ++ h), md.all⟩) ∧
    (∀ (m : Path) (mm : Mod), ld m s = .ok s → entry s m = some mm → mm.all = none →
      ∃ s' qm, exec tbl ext ld p (.star m) s = .ok s' ∧ entry s' p = some qm ∧
        ∀ x, x ∈ qm.names ↔ x ∈ md.names ∨ x ∈ mm.names ∧ ∀ t, x.toList ≠ '_' :: t) := by
  refine ⟨?_, ?_, ?_⟩
  · intro is h ha
    exact ⟨_, rfl, by rw [attemptNames_all ext h is ha]; exact entry_bindIn p _ s md hp⟩
  · intro is js m xs h ha hm he
    exact ⟨_, rfl, by rw [attemptNames_stop ext h is js m xs ha hm he]; exact entry_bindIn p _ s md hp⟩
  · intro m mm hl hm hall
    refine ⟨bindIn p (publicNames mm) s, _, ?_, entry_bindIn p _ s md hp, ?_⟩
    · simp only [exec, hl, hm, hall]
    · intro x
      simp only [List.mem_append, publicNames, List.mem_filter]
      have : (!(x.toList.head? == some '_')) = true ↔ ∀ t, x.toList ≠ '_' :: t := by
        cases x.toList with
        | nil => simp
        | cons c t => simp
      rw [this]

end Forcepho.Imports
