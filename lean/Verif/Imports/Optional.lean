import Verif.Imports.Props

/-!
# C159: modules imported under `try` do not matter

Two installations that agree on the modules that are required import the same, with the same errors.
-/

set_option autoImplicit false

namespace Forcepho.Imports

/-- The names a module binds under `try`. -/
def optionalOf (tbl : Table) (p : Path) : List String :=
  match text tbl p with
  | none => []
  | some t => t.flatMap fun st => match st with
    | .attempt is h => is.flatMap (·.2) ++ h
    | _ => []

/-- No module of the repository asks another for a name bound under `try`. -/
def plain (tbl : Table) : Bool :=
  tbl.all fun e => e.2.all fun st => match st with
    | .frm m xs => xs.all fun x => !(optionalOf tbl m).contains x.1
    | .star m => (optionalOf tbl m).isEmpty
    | _ => true

/-- Two sessions with the same modules, whose names differ at most by those bound under `try`. -/
def Alike (tbl : Table) : State → State → Prop
  | [], [] => True
  | a :: s, b :: u => (a.1 = b.1 ∧ a.2.all = b.2.all ∧
      ∀ x, x ∉ optionalOf tbl a.1 → (x ∈ a.2.names ↔ x ∈ b.2.names)) ∧ Alike tbl s u
  | _, _ => False

/-- The same error, or sessions alike. -/
def SameResult (tbl : Table) : Except Err State → Except Err State → Prop
  | .ok s, .ok u => Alike tbl s u
  | .error e, .error f => e = f
  | _, _ => False

theorem alike_append (tbl : Table) (p : Path) (md : Mod) : ∀ s u : State, Alike tbl s u →
    Alike tbl (s ++ [(p, md)]) (u ++ [(p, md)]) := by
  intro s
  induction s with
  | nil =>
    intro u h
    cases u with
    | nil => exact ⟨⟨rfl, rfl, fun _ _ => Iff.rfl⟩, trivial⟩
    | cons b u => exact h.elim
  | cons a s ih =>
    intro u h
    cases u with
    | nil => exact h.elim
    | cons b u => exact ⟨h.1, ih u h.2⟩

theorem alike_bindIn (tbl : Table) (p : Path) (xs ys : List String)
    (hxy : ∀ x, x ∉ optionalOf tbl p → (x ∈ xs ↔ x ∈ ys)) : ∀ s u : State, Alike tbl s u →
    Alike tbl (bindIn p xs s) (bindIn p ys u) := by
  intro s
  induction s with
  | nil => intro u h; cases u with
    | nil => trivial
    | cons b u => exact h.elim
  | cons a s ih =>
    intro u h
    cases u with
    | nil => exact h.elim
    | cons b u =>
      have ih' := ih u h.2
      obtain ⟨⟨h1, h2, h3⟩, _⟩ := h
      refine ⟨?_, ih'⟩
      by_cases hp : a.1 = p
      · have hp' : b.1 = p := by rw [← h1]; exact hp
        simp only [hp, hp', beq_self_eq_true, if_true]
        refine ⟨trivial, h2, ?_⟩
        intro x hx
        rw [List.mem_append, List.mem_append, h3 x (by rw [hp]; exact hx), hxy x hx]
      · have hp' : b.1 ≠ p := by rw [← h1]; exact hp
        simp only [beq_iff_eq, if_neg hp, if_neg hp']
        exact ⟨h1, h2, h3⟩

theorem alike_setAllIn (tbl : Table) (p : Path) (xs : List String) : ∀ s u : State, Alike tbl s u →
    Alike tbl (setAllIn p xs s) (setAllIn p xs u) := by
  intro s
  induction s with
  | nil => intro u h; cases u with
    | nil => trivial
    | cons b u => exact h.elim
  | cons a s ih =>
    intro u h
    cases u with
    | nil => exact h.elim
    | cons b u =>
      have ih' := ih u h.2
      obtain ⟨⟨h1, h2, h3⟩, _⟩ := h
      refine ⟨?_, ih'⟩
      by_cases hp : a.1 = p
      · have hp' : b.1 = p := by rw [← h1]; exact hp
        simp only [hp, hp', beq_self_eq_true, if_true]
        refine ⟨trivial, trivial, ?_⟩
        intro x hx
        rw [List.mem_append, List.mem_append, h3 x (by rw [hp]; exact hx)]
      · have hp' : b.1 ≠ p := by rw [← h1]; exact hp
        simp only [beq_iff_eq, if_neg hp, if_neg hp']
        exact ⟨h1, h2, h3⟩

/-- The entries of a module in two sessions alike. -/
theorem alike_entry (tbl : Table) (p : Path) : ∀ s u : State, Alike tbl s u →
    (entry s p = none ∧ entry u p = none) ∨ ∃ a b, entry s p = some a ∧ entry u p = some b ∧ a.all = b.all ∧
      ∀ x, x ∉ optionalOf tbl p → (x ∈ a.names ↔ x ∈ b.names) := by
  intro s
  induction s with
  | nil => intro u h; cases u with
    | nil => exact Or.inl ⟨rfl, rfl⟩
    | cons b u => exact h.elim
  | cons a s ih =>
    intro u h
    cases u with
    | nil => exact h.elim
    | cons b u =>
      obtain ⟨⟨h1, h2, h3⟩, h4⟩ := h
      by_cases hp : a.1 = p
      · have hp' : b.1 = p := by rw [← h1]; exact hp
        refine Or.inr ⟨a.2, b.2, ?_, ?_, h2, ?_⟩
        · unfold entry; rw [List.find?_cons_of_pos (by simpa using hp)]; rfl
        · unfold entry; rw [List.find?_cons_of_pos (by simpa using hp')]; rfl
        · rw [hp] at h3; exact h3
      · have hp' : b.1 ≠ p := by rw [← h1]; exact hp
        unfold entry
        rw [List.find?_cons_of_neg (by simpa using hp), List.find?_cons_of_neg (by simpa using hp')]
        exact ih u h4

/-- What is needed of the two loaders of nested imports. -/
def LoadersAlike (tbl : Table) (ld1 ld2 : Loader) : Prop :=
  ∀ (p : Path) (s u : State), Alike tbl s u → SameResult tbl (ld1 p s) (ld2 p u)

theorem same_cases {tbl : Table} {r q : Except Err State} (h : SameResult tbl r q) :
    (∃ s u, r = .ok s ∧ q = .ok u ∧ Alike tbl s u) ∨ ∃ e, r = .error e ∧ q = .error e := by
  cases r with
  | error e => cases q with
    | error f => exact Or.inr ⟨e, rfl, by rw [show e = f from h]⟩
    | ok u => exact h.elim
  | ok s => cases q with
    | error f => exact h.elim
    | ok u => exact Or.inl ⟨s, u, rfl, rfl, h⟩

theorem getName_alike (tbl : Table) (ld1 ld2 : Loader) (hld : LoadersAlike tbl ld1 ld2) (m : Path) (x : String)
    (hx : x ∉ optionalOf tbl m) (s u : State) (h : Alike tbl s u) :
    SameResult tbl (getName tbl ld1 m x s) (getName tbl ld2 m x u) := by
  unfold getName
  rcases alike_entry tbl m s u h with ⟨h1, h2⟩ | ⟨a, b, h1, h2, _, h3⟩
  · rw [h1, h2]; rfl
  · rw [h1, h2]
    simp only
    have hc : a.names.contains x = b.names.contains x := by
      rw [Bool.eq_iff_iff, List.contains_iff_mem, List.contains_iff_mem]
      exact h3 x hx
    rw [hc]
    split
    · exact h
    · split
      · exact hld _ s u h
      · rfl

theorem getNames_alike (tbl : Table) (ld1 ld2 : Loader) (hld : LoadersAlike tbl ld1 ld2) (m : Path) :
    ∀ (xs : List String), (∀ x ∈ xs, x ∉ optionalOf tbl m) → ∀ (s u : State), Alike tbl s u →
      SameResult tbl (getNames tbl ld1 m xs s) (getNames tbl ld2 m xs u) := by
  intro xs
  induction xs with
  | nil => intro _ s u h; exact h
  | cons x xs ih =>
    intro hxs s u h
    simp only [getNames]
    rcases same_cases (getName_alike tbl ld1 ld2 hld m x (hxs x (by simp)) s u h) with ⟨s1, u1, e1, e2, h1⟩ | ⟨e, e1, e2⟩
    · rw [e1, e2]
      exact ih (fun y hy => hxs y (List.mem_cons_of_mem _ hy)) s1 u1 h1
    · rw [e1, e2]; rfl

theorem text_mem (tbl : Table) (p : Path) (t : Text) (h : text tbl p = some t) : (p, t) ∈ tbl := by
  unfold text at h
  cases hf : tbl.find? fun e => e.1 == p with
  | none => rw [hf] at h; cases h
  | some e =>
    rw [hf] at h
    injection h with h
    have h1 := List.find?_some hf
    have h2 := List.mem_of_find?_eq_some hf
    simp only [beq_iff_eq] at h1
    rw [← h1, ← h]
    exact h2

theorem exec_alike (tbl : Table) (hpl : plain tbl = true) (ext1 ext2 : String → Bool)
    (hext : ∀ e ∈ tbl, ∀ (m : String) (xs : List String), Stmt.ext m xs ∈ e.2 → ext1 m = ext2 m)
    (ld1 ld2 : Loader) (hld : LoadersAlike tbl ld1 ld2) (p : Path) (t : Text) (ht : text tbl p = some t) (st : Stmt)
    (hst : st ∈ t) (s u : State) (h : Alike tbl s u) :
    SameResult tbl (exec tbl ext1 ld1 p st s) (exec tbl ext2 ld2 p st u) := by
  have hmem := text_mem tbl p t ht
  have hpl' := List.all_eq_true.1 (List.all_eq_true.1 hpl _ hmem) _ hst
  cases st with
  | bind xs => exact alike_bindIn tbl p xs xs (fun _ _ => Iff.rfl) s u h
  | setAll xs => exact alike_setAllIn tbl p xs s u h
  | ext m xs =>
    simp only [exec]
    rw [hext _ hmem m xs hst]
    split
    · exact alike_bindIn tbl p xs xs (fun _ _ => Iff.rfl) s u h
    · rfl
  | attempt is hd =>
    refine alike_bindIn tbl p _ _ ?_ s u h
    intro x hx
    have : x ∉ is.flatMap (·.2) ++ hd := by
      intro hh
      apply hx
      unfold optionalOf
      rw [ht]
      exact List.mem_flatMap.2 ⟨_, hst, hh⟩
    exact ⟨fun hh => absurd (attemptNames_sub ext1 is hd x hh) this, fun hh => absurd (attemptNames_sub ext2 is hd x hh) this⟩
  | frm m xs =>
    simp only [exec]
    have hxs : ∀ x ∈ xs.map (·.1), x ∉ optionalOf tbl m := by
      intro x hx
      obtain ⟨y, hy, rfl⟩ := List.mem_map.1 hx
      have := List.all_eq_true.1 hpl' y hy
      simpa using this
    rcases same_cases (hld m s u h) with ⟨s1, u1, e1, e2, h1⟩ | ⟨e, e1, e2⟩
    · rw [e1, e2]
      simp only
      rcases same_cases (getNames_alike tbl ld1 ld2 hld m _ hxs s1 u1 h1) with ⟨s2, u2, e1, e2, h2⟩ | ⟨e, e1, e2⟩
      · rw [e1, e2]
        exact alike_bindIn tbl p _ _ (fun _ _ => Iff.rfl) s2 u2 h2
      · rw [e1, e2]; rfl
    · rw [e1, e2]; rfl
  | star m =>
    simp only [exec]
    have hm : optionalOf tbl m = [] := List.isEmpty_iff.1 hpl'
    rcases same_cases (hld m s u h) with ⟨s1, u1, e1, e2, h1⟩ | ⟨e, e1, e2⟩
    · rw [e1, e2]
      simp only
      rcases alike_entry tbl m s1 u1 h1 with ⟨h2, h3⟩ | ⟨a, b, h2, h3, h4, h5⟩
      · rw [h2, h3]; rfl
      · rw [h2, h3]
        simp only
        rw [h4]
        cases b.all with
        | none =>
          refine alike_bindIn tbl p _ _ ?_ s1 u1 h1
          intro x _
          unfold publicNames
          rw [List.mem_filter, List.mem_filter, h5 x (by rw [hm]; simp)]
        | some xs =>
          simp only
          rcases same_cases (getNames_alike tbl ld1 ld2 hld m xs (by rw [hm]; simp) s1 u1 h1) with
            ⟨s2, u2, e1, e2, h2⟩ | ⟨e, e1, e2⟩
          · rw [e1, e2]
            exact alike_bindIn tbl p _ _ (fun _ _ => Iff.rfl) s2 u2 h2
          · rw [e1, e2]; rfl
    · rw [e1, e2]; rfl

theorem execAll_alike (tbl : Table) (hpl : plain tbl = true) (ext1 ext2 : String → Bool)
    (hext : ∀ e ∈ tbl, ∀ (m : String) (xs : List String), Stmt.ext m xs ∈ e.2 → ext1 m = ext2 m)
    (ld1 ld2 : Loader) (hld : LoadersAlike tbl ld1 ld2) (p : Path) (t : Text) (ht : text tbl p = some t) :
    ∀ (v : Text), (∀ st ∈ v, st ∈ t) → ∀ (s u : State), Alike tbl s u →
      SameResult tbl (execAll tbl ext1 ld1 p v s) (execAll tbl ext2 ld2 p v u) := by
  intro v
  induction v with
  | nil => intro _ s u h; exact h
  | cons st v ih =>
    intro hv s u h
    simp only [execAll]
    rcases same_cases (exec_alike tbl hpl ext1 ext2 hext ld1 ld2 hld p t ht st (hv st (by simp)) s u h) with
      ⟨s1, u1, e1, e2, h1⟩ | ⟨e, e1, e2⟩
    · rw [e1, e2]
      exact ih (fun k hk => hv k (List.mem_cons_of_mem _ hk)) s1 u1 h1
    · rw [e1, e2]; rfl

/-- C159 (optional modules). In two installations that agree on the modules imported outside a `try`, importing a module
gives the same error, or the same modules with the same names apart from names bound under `try`. -/
theorem C159_optional (tbl : Table) (hpl : plain tbl = true) (ext1 ext2 : String → Bool)
    (hext : ∀ e ∈ tbl, ∀ (m : String) (xs : List String), Stmt.ext m xs ∈ e.2 → ext1 m = ext2 m) (n : Nat) :
    LoadersAlike tbl (load tbl ext1 n) (load tbl ext2 n) := by
  induction n with
  | zero => intro p s u _; rfl
  | succ n ih =>
    intro p s u h
    simp only [load]
    have hsome : ∀ s u : State, Alike tbl s u → (entry s p).isSome = (entry u p).isSome := by
      intro s u h
      rcases alike_entry tbl p s u h with ⟨h1, h2⟩ | ⟨a, b, h1, h2, _⟩ <;> rw [h1, h2] <;> rfl
    rw [hsome s u h]
    split
    · exact h
    · have hpar : SameResult tbl (loadParent (load tbl ext1 n) p s) (loadParent (load tbl ext2 n) p u) := by
        unfold loadParent
        split
        · exact h
        · exact ih _ s u h
      rcases same_cases hpar with ⟨s1, u1, e1, e2, h1⟩ | ⟨e, e1, e2⟩
      · rw [e1, e2]
        simp only
        rw [hsome s1 u1 h1]
        split
        · exact h1
        · cases ht : text tbl p with
          | none => rfl
          | some t =>
            simp only
            rcases same_cases (execAll_alike tbl hpl ext1 ext2 hext _ _ ih p t ht t (fun _ h => h) _ _
              (alike_append tbl p ⟨[], none⟩ s1 u1 h1)) with ⟨s2, u2, e1, e2, h2⟩ | ⟨e, e1, e2⟩
            · rw [e1, e2]
              simp only [SameResult]
              unfold bindParent
              split
              · exact h2
              · split
                · exact h2
                · exact alike_bindIn tbl _ _ _ (fun _ _ => Iff.rfl) s2 u2 h2
            · rw [e1, e2]; rfl
      · rw [e1, e2]; rfl

end Forcepho.Imports
