import Verif.Imports.Props

/-!
# C164: what a module has once it has been imported

`CanBind` says which names a module can have at most; here, which it has at least, in any session.
-/

set_option autoImplicit false

namespace Forcepho.Imports

/-- The names a statement binds once it has been executed. -/
inductive Binds (ext : String → Bool) : Stmt → String → Prop where
  | bind (xs : List String) (x : String) (h : x ∈ xs) : Binds ext (.bind xs) x
  | ext (m : String) (xs : List String) (x : String) (h : x ∈ xs) : Binds ext (.ext m xs) x
  | frm (m : Path) (xs : List (String × String)) (x : String) (h : ∃ y ∈ xs, y.2 = x) : Binds ext (.frm m xs) x
  | attempt (is : List (String × List String)) (h : List String) (x : String)
      (hall : ∀ i ∈ is, i.1 = "" ∨ ext i.1 = true) (hx : ∃ i ∈ is, x ∈ i.2) : Binds ext (.attempt is h) x

/-- The module `p` is there, with the name `x`. -/
def Has (s : State) (p : Path) (x : String) : Prop := (∃ md, (p, md) ∈ s) ∧ ∀ md, (p, md) ∈ s → x ∈ md.names

theorem bindIn_has (p q : Path) (xs : List String) (x : String) (s : State) (h : Has s q x) : Has (bindIn p xs s) q x := by
  refine ⟨(bindIn_paths p q xs s).2 h.1, ?_⟩
  intro md hmd
  unfold bindIn at hmd
  obtain ⟨e, he, hq⟩ := List.mem_map.1 hmd
  by_cases hp : e.1 == p
  · rw [if_pos hp] at hq
    obtain ⟨h1, h2⟩ := Prod.mk.inj hq
    rw [← h2]
    refine List.mem_append.2 (Or.inl (h.2 e.2 ?_))
    rw [← h1]; exact he
  · rw [if_neg hp] at hq
    exact h.2 md (hq ▸ he)

theorem setAllIn_has (p q : Path) (xs : List String) (x : String) (s : State) (h : Has s q x) :
    Has (setAllIn p xs s) q x := by
  refine ⟨setAllIn_paths p q xs s h.1, ?_⟩
  intro md hmd
  unfold setAllIn at hmd
  obtain ⟨e, he, hq⟩ := List.mem_map.1 hmd
  by_cases hp : e.1 == p
  · rw [if_pos hp] at hq
    obtain ⟨h1, h2⟩ := Prod.mk.inj hq
    rw [← h2]
    refine List.mem_append.2 (Or.inl (h.2 e.2 ?_))
    rw [← h1]; exact he
  · rw [if_neg hp] at hq
    exact h.2 md (hq ▸ he)

/-- Names just bound are there. -/
theorem bindIn_new (p : Path) (xs : List String) (x : String) (hx : x ∈ xs) (s : State) (h : ∃ md, (p, md) ∈ s) :
    Has (bindIn p xs s) p x := by
  refine ⟨(bindIn_paths p p xs s).2 h, ?_⟩
  intro md hmd
  unfold bindIn at hmd
  obtain ⟨e, he, hq⟩ := List.mem_map.1 hmd
  by_cases hp : e.1 == p
  · rw [if_pos hp] at hq
    rw [← (Prod.mk.inj hq).2]
    exact List.mem_append.2 (Or.inr hx)
  · rw [if_neg hp] at hq
    rw [hq] at hp
    simp at hp

/-- The loader takes no name away. -/
def LoaderHas (ld : Loader) : Prop :=
  ∀ (q : Path) (x : String) (p : Path) (s s' : State), ld p s = .ok s' → Has s q x → Has s' q x

theorem getNames_has (tbl : Table) (ld : Loader) (hld : LoaderHas ld) (q : Path) (y : String) (m : Path) :
    ∀ (xs : List String) (s s' : State), getNames tbl ld m xs s = .ok s' → Has s q y → Has s' q y := by
  intro xs
  induction xs with
  | nil => intro s s' h hq; injection h with h; rw [← h]; exact hq
  | cons x xs ih =>
    intro s s' hs hq
    simp only [getNames] at hs
    cases hg : getName tbl ld m x s with
    | error e => rw [hg] at hs; cases hs
    | ok s1 =>
      rw [hg] at hs
      apply ih s1 s' hs
      unfold getName at hg
      cases he : entry s m with
      | none => rw [he] at hg; cases hg
      | some md =>
        rw [he] at hg
        simp only at hg
        split at hg
        · injection hg with hg; rw [← hg]; exact hq
        · split at hg
          · exact hld q y _ s s1 hg hq
          · cases hg

/-- A statement takes no name away. -/
theorem exec_has (tbl : Table) (ext : String → Bool) (ld : Loader) (hld : LoaderHas ld) (q : Path) (y : String) (p : Path)
    (st : Stmt) (s s' : State) (hs : exec tbl ext ld p st s = .ok s') (hq : Has s q y) : Has s' q y := by
  cases st with
  | bind xs => injection hs with hs; rw [← hs]; exact bindIn_has p q xs y s hq
  | setAll xs => injection hs with hs; rw [← hs]; exact setAllIn_has p q xs y s hq
  | ext m xs =>
    simp only [exec] at hs
    split at hs
    · injection hs with hs; rw [← hs]; exact bindIn_has p q xs y s hq
    · cases hs
  | attempt is h => injection hs with hs; rw [← hs]; exact bindIn_has p q _ y s hq
  | frm m xs =>
    simp only [exec] at hs
    cases hl : ld m s with
    | error e => rw [hl] at hs; cases hs
    | ok s1 =>
      rw [hl] at hs
      simp only at hs
      cases hg : getNames tbl ld m (xs.map (·.1)) s1 with
      | error e => rw [hg] at hs; cases hs
      | ok s2 =>
        rw [hg] at hs
        injection hs with hs
        rw [← hs]
        exact bindIn_has p q _ y s2 (getNames_has tbl ld hld q y m _ s1 s2 hg (hld q y m s s1 hl hq))
  | star m =>
    simp only [exec] at hs
    cases hl : ld m s with
    | error e => rw [hl] at hs; cases hs
    | ok s1 =>
      rw [hl] at hs
      simp only at hs
      have h1 := hld q y m s s1 hl hq
      cases he : entry s1 m with
      | none => rw [he] at hs; cases hs
      | some md =>
        rw [he] at hs
        simp only at hs
        cases ha : md.all with
        | none =>
          rw [ha] at hs
          injection hs with hs
          rw [← hs]
          exact bindIn_has p q _ y s1 h1
        | some xs =>
          rw [ha] at hs
          simp only at hs
          cases hg : getNames tbl ld m xs s1 with
          | error e => rw [hg] at hs; cases hs
          | ok s2 =>
            rw [hg] at hs
            injection hs with hs
            rw [← hs]
            exact bindIn_has p q _ y s2 (getNames_has tbl ld hld q y m _ s1 s2 hg h1)

theorem execAll_has (tbl : Table) (ext : String → Bool) (ld : Loader) (hld : LoaderHas ld) (q : Path) (y : String) (p : Path) :
    ∀ (u : Text) (s s' : State), execAll tbl ext ld p u s = .ok s' → Has s q y → Has s' q y := by
  intro u
  induction u with
  | nil => intro s s' h hq; injection h with h; rw [← h]; exact hq
  | cons st u ih =>
    intro s s' hs hq
    simp only [execAll] at hs
    cases he : exec tbl ext ld p st s with
    | error e => rw [he] at hs; cases hs
    | ok s1 =>
      rw [he] at hs
      exact ih s1 s' hs (exec_has tbl ext ld hld q y p st s s1 he hq)

theorem bindParent_has (p q : Path) (x : String) (s : State) (h : Has s q x) : Has (bindParent p s) q x := by
  unfold bindParent
  split
  · exact h
  · split
    · exact h
    · exact bindIn_has _ q _ x s h

theorem entry_none (s : State) (p : Path) (h : ¬ (entry s p).isSome = true) (md : Mod) : (p, md) ∉ s := by
  intro hm
  apply h
  unfold entry
  rw [Option.isSome_map, List.find?_isSome]
  exact ⟨(p, md), hm, by simp⟩

theorem append_has (p : Path) (s : State) (he : ¬ (entry s p).isSome = true) (q : Path) (x : String) (h : Has s q x) :
    Has (s ++ [(p, ⟨[], none⟩)]) q x := by
  obtain ⟨⟨md, hmd⟩, h2⟩ := h
  refine ⟨⟨md, List.mem_append.2 (Or.inl hmd)⟩, ?_⟩
  intro md' hm
  rcases List.mem_append.1 hm with hm | hm
  · exact h2 md' hm
  · have := List.mem_singleton.1 hm
    have hq : q = p := (Prod.mk.inj this).1
    rw [hq] at hmd
    exact absurd hmd (entry_none s p he md)

/-- Importing takes no name away from any module. -/
theorem load_has (tbl : Table) (ext : String → Bool) (n : Nat) : LoaderHas (load tbl ext n) := by
  induction n with
  | zero => intro q x p s s' h; cases h
  | succ n ih =>
    intro q x p s s' hs hq
    simp only [load] at hs
    by_cases he : (entry s p).isSome = true
    · rw [if_pos he] at hs
      injection hs with hs
      rw [← hs]; exact hq
    rw [if_neg he] at hs
    cases hp : loadParent (load tbl ext n) p s with
    | error e => rw [hp] at hs; cases hs
    | ok s1 =>
      rw [hp] at hs
      simp only at hs
      have h1 : Has s1 q x := by
        unfold loadParent at hp
        split at hp
        · injection hp with hp; rw [← hp]; exact hq
        · exact ih q x _ s s1 hp hq
      by_cases he1 : (entry s1 p).isSome = true
      · rw [if_pos he1] at hs
        injection hs with hs
        rw [← hs]; exact h1
      rw [if_neg he1] at hs
      cases ht : text tbl p with
      | none => rw [ht] at hs; cases hs
      | some t =>
        rw [ht] at hs
        simp only at hs
        cases hx : execAll tbl ext (load tbl ext n) p t (s1 ++ [(p, ⟨[], none⟩)]) with
        | error e => rw [hx] at hs; cases hs
        | ok s2 =>
          rw [hx] at hs
          injection hs with hs
          rw [← hs]
          exact bindParent_has p q x s2 (execAll_has tbl ext _ ih q x p t _ s2 hx (append_has p s1 he1 q x h1))

/-- A statement that has been executed has bound its names. -/
theorem exec_binds (tbl : Table) (ext : String → Bool) (ld : Loader) (hk : LoaderKeeps ld) (p : Path) (st : Stmt) (s s' : State)
    (hs : exec tbl ext ld p st s = .ok s') (hp : ∃ md, (p, md) ∈ s) (x : String) (hx : Binds ext st x) : Has s' p x := by
  cases hx with
  | bind xs x h => injection hs with hs; rw [← hs]; exact bindIn_new p xs x h s hp
  | ext m xs x h =>
    simp only [exec] at hs
    split at hs
    · injection hs with hs; rw [← hs]; exact bindIn_new p xs x h s hp
    · cases hs
  | attempt is h x hall hx =>
    injection hs with hs
    rw [← hs, attemptNames_all ext h is hall]
    exact bindIn_new p _ x (List.mem_flatMap.2 hx) s hp
  | frm m xs x h =>
    simp only [exec] at hs
    cases hl : ld m s with
    | error e => rw [hl] at hs; cases hs
    | ok s1 =>
      rw [hl] at hs
      simp only at hs
      cases hg : getNames tbl ld m (xs.map (·.1)) s1 with
      | error e => rw [hg] at hs; cases hs
      | ok s2 =>
        rw [hg] at hs
        injection hs with hs
        rw [← hs]
        exact bindIn_new p _ x (List.mem_map.2 h) s2 (getNames_keeps tbl ld hk p m _ s1 s2 hg (hk p m s s1 hl hp))

theorem execAll_binds (tbl : Table) (ext : String → Bool) (ld : Loader) (hk : LoaderKeeps ld) (hld : LoaderHas ld) (p : Path) :
    ∀ (u : Text) (s s' : State), execAll tbl ext ld p u s = .ok s' → (∃ md, (p, md) ∈ s) →
      ∀ st ∈ u, ∀ x, Binds ext st x → Has s' p x := by
  intro u
  induction u with
  | nil => intro s s' _ _ st hst; cases hst
  | cons st u ih =>
    intro s s' hs hp st' hst x hx
    simp only [execAll] at hs
    cases he : exec tbl ext ld p st s with
    | error e => rw [he] at hs; cases hs
    | ok s1 =>
      rw [he] at hs
      rcases List.mem_cons.1 hst with rfl | hst
      · exact execAll_has tbl ext ld hld p x p u s1 s' hs (exec_binds tbl ext ld hk p _ s s1 he hp x hx)
      · exact ih s1 s' hs (exec_keeps tbl ext ld hk p p st s s1 he hp) st' hst x hx

/-- What holds of `sys.modules` at any time: the modules not in `stack` (being imported) have all that their statements bind. -/
def Done (tbl : Table) (ext : String → Bool) (stack : List Path) (s : State) : Prop :=
  ∀ p, (∃ md, (p, md) ∈ s) → p ∈ stack ∨ ∃ t, text tbl p = some t ∧ ∀ st ∈ t, ∀ x, Binds ext st x → Has s p x

/-- What is needed of the loader of nested imports. -/
def LoaderDone (tbl : Table) (ext : String → Bool) (ld : Loader) : Prop :=
  ∀ (stack : List Path) (p : Path) (s s' : State), Done tbl ext stack s → ld p s = .ok s' → Done tbl ext stack s'

theorem done_bindIn (tbl : Table) (ext : String → Bool) (stack : List Path) (p : Path) (xs : List String) (s : State)
    (h : Done tbl ext stack s) : Done tbl ext stack (bindIn p xs s) := by
  intro q hq
  rcases h q ((bindIn_paths p q xs s).1 hq) with h | ⟨t, ht, hb⟩
  · exact Or.inl h
  · exact Or.inr ⟨t, ht, fun st hst x hx => bindIn_has p q xs x s (hb st hst x hx)⟩

theorem done_setAllIn (tbl : Table) (ext : String → Bool) (stack : List Path) (p : Path) (xs : List String) (s : State)
    (h : Done tbl ext stack s) : Done tbl ext stack (setAllIn p xs s) := by
  intro q hq
  have hq' : ∃ md, (q, md) ∈ s := by
    obtain ⟨md, hmd⟩ := hq
    unfold setAllIn at hmd
    obtain ⟨e, he, hq⟩ := List.mem_map.1 hmd
    by_cases hp : e.1 == p
    · rw [if_pos hp] at hq
      exact ⟨e.2, by rw [show q = e.1 by rw [← (Prod.mk.inj hq).1]]; exact he⟩
    · rw [if_neg hp] at hq
      exact ⟨md, hq ▸ he⟩
  rcases h q hq' with h | ⟨t, ht, hb⟩
  · exact Or.inl h
  · exact Or.inr ⟨t, ht, fun st hst x hx => setAllIn_has p q xs x s (hb st hst x hx)⟩

theorem getNames_done (tbl : Table) (ext : String → Bool) (ld : Loader) (hld : LoaderDone tbl ext ld) (stack : List Path)
    (m : Path) : ∀ (xs : List String) (s s' : State), getNames tbl ld m xs s = .ok s' → Done tbl ext stack s →
      Done tbl ext stack s' := by
  intro xs
  induction xs with
  | nil => intro s s' h hq; injection h with h; rw [← h]; exact hq
  | cons x xs ih =>
    intro s s' hs hq
    simp only [getNames] at hs
    cases hg : getName tbl ld m x s with
    | error e => rw [hg] at hs; cases hs
    | ok s1 =>
      rw [hg] at hs
      apply ih s1 s' hs
      unfold getName at hg
      cases he : entry s m with
      | none => rw [he] at hg; cases hg
      | some md =>
        rw [he] at hg
        simp only at hg
        split at hg
        · injection hg with hg; rw [← hg]; exact hq
        · split at hg
          · exact hld stack _ s s1 hq hg
          · cases hg

theorem exec_done (tbl : Table) (ext : String → Bool) (ld : Loader) (hld : LoaderDone tbl ext ld) (stack : List Path) (p : Path)
    (st : Stmt) (s s' : State) (hs : exec tbl ext ld p st s = .ok s') (hq : Done tbl ext stack s) : Done tbl ext stack s' := by
  cases st with
  | bind xs => injection hs with hs; rw [← hs]; exact done_bindIn tbl ext stack p xs s hq
  | setAll xs => injection hs with hs; rw [← hs]; exact done_setAllIn tbl ext stack p xs s hq
  | ext m xs =>
    simp only [exec] at hs
    split at hs
    · injection hs with hs; rw [← hs]; exact done_bindIn tbl ext stack p xs s hq
    · cases hs
  | attempt is h => injection hs with hs; rw [← hs]; exact done_bindIn tbl ext stack p _ s hq
  | frm m xs =>
    simp only [exec] at hs
    cases hl : ld m s with
    | error e => rw [hl] at hs; cases hs
    | ok s1 =>
      rw [hl] at hs
      simp only at hs
      cases hg : getNames tbl ld m (xs.map (·.1)) s1 with
      | error e => rw [hg] at hs; cases hs
      | ok s2 =>
        rw [hg] at hs
        injection hs with hs
        rw [← hs]
        exact done_bindIn tbl ext stack p _ s2 (getNames_done tbl ext ld hld stack m _ s1 s2 hg (hld stack m s s1 hq hl))
  | star m =>
    simp only [exec] at hs
    cases hl : ld m s with
    | error e => rw [hl] at hs; cases hs
    | ok s1 =>
      rw [hl] at hs
      simp only at hs
      have h1 := hld stack m s s1 hq hl
      cases he : entry s1 m with
      | none => rw [he] at hs; cases hs
      | some md =>
        rw [he] at hs
        simp only at hs
        cases ha : md.all with
        | none =>
          rw [ha] at hs
          injection hs with hs
          rw [← hs]
          exact done_bindIn tbl ext stack p _ s1 h1
        | some xs =>
          rw [ha] at hs
          simp only at hs
          cases hg : getNames tbl ld m xs s1 with
          | error e => rw [hg] at hs; cases hs
          | ok s2 =>
            rw [hg] at hs
            injection hs with hs
            rw [← hs]
            exact done_bindIn tbl ext stack p _ s2 (getNames_done tbl ext ld hld stack m _ s1 s2 hg h1)

theorem execAll_done (tbl : Table) (ext : String → Bool) (ld : Loader) (hld : LoaderDone tbl ext ld) (stack : List Path)
    (p : Path) : ∀ (u : Text) (s s' : State), execAll tbl ext ld p u s = .ok s' → Done tbl ext stack s →
      Done tbl ext stack s' := by
  intro u
  induction u with
  | nil => intro s s' h hq; injection h with h; rw [← h]; exact hq
  | cons st u ih =>
    intro s s' hs hq
    simp only [execAll] at hs
    cases he : exec tbl ext ld p st s with
    | error e => rw [he] at hs; cases hs
    | ok s1 =>
      rw [he] at hs
      exact ih s1 s' hs (exec_done tbl ext ld hld stack p st s s1 he hq)

theorem load_done (tbl : Table) (ext : String → Bool) (n : Nat) : LoaderDone tbl ext (load tbl ext n) := by
  induction n with
  | zero => intro stack p s s' _ h; cases h
  | succ n ih =>
    intro stack p s s' h hs
    simp only [load] at hs
    by_cases he : (entry s p).isSome = true
    · rw [if_pos he] at hs
      injection hs with hs
      rw [← hs]; exact h
    rw [if_neg he] at hs
    cases hp : loadParent (load tbl ext n) p s with
    | error e => rw [hp] at hs; cases hs
    | ok s1 =>
      rw [hp] at hs
      simp only at hs
      have h1 : Done tbl ext stack s1 := by
        unfold loadParent at hp
        split at hp
        · injection hp with hp; rw [← hp]; exact h
        · exact ih stack _ s s1 h hp
      by_cases he1 : (entry s1 p).isSome = true
      · rw [if_pos he1] at hs
        injection hs with hs
        rw [← hs]; exact h1
      rw [if_neg he1] at hs
      cases ht : text tbl p with
      | none => rw [ht] at hs; cases hs
      | some t =>
        rw [ht] at hs
        simp only at hs
        cases hx : execAll tbl ext (load tbl ext n) p t (s1 ++ [(p, ⟨[], none⟩)]) with
        | error e => rw [hx] at hs; cases hs
        | ok s2 =>
          rw [hx] at hs
          injection hs with hs
          have h0 : Done tbl ext (p :: stack) (s1 ++ [(p, ⟨[], none⟩)]) := by
            intro q hq
            obtain ⟨md, hmd⟩ := hq
            rcases List.mem_append.1 hmd with hm | hm
            · rcases h1 q ⟨md, hm⟩ with h | ⟨t', ht', hb⟩
              · exact Or.inl (List.mem_cons_of_mem _ h)
              · exact Or.inr ⟨t', ht', fun st hst x hx => append_has p s1 he1 q x (hb st hst x hx)⟩
            · have hq : q = p := (Prod.mk.inj (List.mem_singleton.1 hm)).1
              exact Or.inl (by rw [hq]; simp)
          have h2 := execAll_done tbl ext _ ih (p :: stack) p t _ s2 hx h0
          have h3 := execAll_binds tbl ext _ (load_keeps tbl ext n).1 (load_has tbl ext n) p t _ s2 hx ⟨⟨[], none⟩, by simp⟩
          have h4 : Done tbl ext stack s2 := by
            intro q hq
            rcases h2 q hq with h | h
            · rcases List.mem_cons.1 h with rfl | h
              · exact Or.inr ⟨t, ht, h3⟩
              · exact Or.inl h
            · exact Or.inr h
          rw [← hs]
          unfold bindParent
          split
          · exact h4
          · split
            · exact h4
            · exact done_bindIn tbl ext stack _ _ s2 h4

/-- C164, sessions. Import any modules in any order: at the end each module that is there, also if it was imported by
another one, has every name that its own statements bind, with those under `try` if all that they import is installed. -/
theorem C164_bound (tbl : Table) (ext : String → Bool) (n : Nat) (ps : List Path) (s : State)
    (hs : ps.foldlM (fun s p => load tbl ext n p s) [] = Except.ok s) (p : Path) (md : Mod) (hp : (p, md) ∈ s) :
    ∃ t, text tbl p = some t ∧ ∀ st ∈ t, ∀ x, Binds ext st x → x ∈ md.names := by
  have h : ∀ (ps : List Path) (s s' : State), Done tbl ext [] s →
      ps.foldlM (fun s p => load tbl ext n p s) s = Except.ok s' → Done tbl ext [] s' := by
    intro ps
    induction ps with
    | nil => intro s s' h hs; injection hs with hs; rw [← hs]; exact h
    | cons p ps ih =>
      intro s s' h hs
      rw [List.foldlM_cons] at hs
      cases hl : load tbl ext n p s with
      | error e => rw [hl] at hs; cases hs
      | ok s1 =>
        rw [hl] at hs
        exact ih s1 s' (load_done tbl ext n [] p s s1 h hl) hs
  rcases h ps [] s (fun q hq => by obtain ⟨_, hq⟩ := hq; cases hq) hs p ⟨md, hp⟩ with h | ⟨t, ht, hb⟩
  · cases h
  · exact ⟨t, ht, fun st hst x hx => (hb st hst x hx).2 md hp⟩

end Forcepho.Imports
