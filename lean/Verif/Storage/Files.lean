import Verif.Storage.Ingest

/-! # Properties C40 (stores are maps), C71 (astrometry cache), C72 (stored layout) -/

set_option autoImplicit false
set_option linter.unusedSectionVars false

namespace Forcepho.Storage

/-! ## C40 the pixel file -/

/-- The content of a file in terms of the last data added for each exposure. -/
structure Holds {D : Type} (f : File D) (val : Path → Option D) : Prop where
  data : ∀ q d, f q = some (.data d) ↔ ∃ p, q = p ++ ["data"] ∧ val p = some d
  group : ∀ q, f q = some .group ↔ q ≠ [] ∧ ∃ p, (val p).isSome ∧ q <+: p

/-- No exposure path is a proper prefix of another. -/
def Antichain (ps : Path → Prop) : Prop := ∀ p q, ps p → ps q → p <+: q → p = q

lemma prefix_append_data {p q : Path} (h : p <+: q ++ ["data"]) : p <+: q ∨ p = q ++ ["data"] := by
  rcases List.prefix_concat_iff.1 h with h | h
  · exact Or.inr h
  · exact Or.inl h

lemma append_data_inj {p q : Path} (h : p ++ ["data"] = q ++ ["data"]) : p = q :=
  List.append_cancel_right h

lemma not_append_prefix {p : Path} : ¬ p ++ ["data"] <+: p := by
  intro h
  have := h.length_le
  simp at this

/-- One addition, in terms of the last-data map. -/
lemma put_step {D : Type} {f : File D} {val : Path → Option D} (hf : Holds f val) {p0 : Path} (d0 : D)
    (hne : p0 ≠ []) (hanti : Antichain fun p => (val p).isSome ∨ p = p0) :
    ∃ g, put f p0 d0 = .ok g ∧
      Holds g (fun p => if p = p0 then some d0 else val p) := by
  have hself : ∀ p, (val p).isSome → p <+: p0 → p = p0 :=
    fun p h hp => hanti p p0 (Or.inl h) (Or.inr rfl) hp
  have hself' : ∀ p, (val p).isSome → p0 <+: p → p = p0 :=
    fun p h hp => (hanti p0 p (Or.inr rfl) (Or.inl h) hp).symm
  -- no dataset on the way to `p0`
  have hnodata : ∀ q d, q <+: p0 → f q ≠ some (.data d) := by
    intro q d hq hd
    obtain ⟨p, rfl, hv⟩ := (hf.data q d).1 hd
    have hp : p <+: p0 := (List.prefix_append p ["data"]).trans hq
    have := hself p (by simp [hv]) hp
    subst this
    exact not_append_prefix hq
  have hblock : ∀ f' : File D, (∀ q, f' q = none ∨ f' q = f q) → blocked f' p0 = false := by
    intro f' hf'
    unfold blocked
    rw [List.any_eq_false]
    intro q hq
    have hq' := (List.mem_inits q p0).1 hq
    rcases hf' q with h | h
    · simp [h]
    · rw [h]
      cases hfq : f q with
      | none => simp
      | some n =>
        cases n with
        | group => simp
        | data d => exact absurd hfq (hnodata q d hq')
  -- creation and writing, starting from a file that agrees with `f` outside `p0`
  have main : ∀ f' : File D, f' p0 = none →
      (∀ q, ¬ p0 <+: q → f' q = f q) → (∀ q, p0 <+: q → f' q = none) →
      ∃ g, createGroup f' p0 = .ok g ∧
        Holds (putData g p0 d0) (fun p => if p = p0 then some d0 else val p) := by
    intro f' h0 hout hin
    have hb : blocked f' p0 = false := by
      apply hblock
      intro q
      by_cases hq : p0 <+: q
      · exact Or.inl (hin q hq)
      · exact Or.inr (hout q hq)
    refine ⟨_, by unfold createGroup; rw [if_neg (by simp [h0]), if_neg (by simp [hb])], ?_⟩
    have hval : ∀ p, p ≠ p0 → (val p).isSome → ¬ p0 <+: p ++ ["data"] := by
      intro p hp hs hpre
      rcases prefix_append_data hpre with h | h
      · exact hp (hself' p hs h)
      · have : p <+: p0 := by rw [h]; exact List.prefix_append _ _
        exact hp (hself p hs this)
    constructor
    · intro q d
      unfold putData
      by_cases hq : q = p0 ++ ["data"]
      · rw [if_pos hq]
        constructor
        · intro h
          cases h
          exact ⟨p0, hq, by simp⟩
        · rintro ⟨p, hp, hv⟩
          have : p = p0 := append_data_inj (hp.symm.trans hq)
          subst this
          simp at hv
          rw [hv]
      · rw [if_neg hq]
        beta_reduce
        have hrhs : (∃ p, q = p ++ ["data"] ∧ (if p = p0 then some d0 else val p) = some d) ↔
            ∃ p, q = p ++ ["data"] ∧ p ≠ p0 ∧ val p = some d := by
          constructor
          · rintro ⟨p, hp, hv⟩
            have hpp : p ≠ p0 := fun h => hq (h ▸ hp)
            rw [if_neg hpp] at hv
            exact ⟨p, hp, hpp, hv⟩
          · rintro ⟨p, hp, hpp, hv⟩
            exact ⟨p, hp, by rw [if_neg hpp]; exact hv⟩
        rw [hrhs]
        constructor
        · intro h
          split at h
          · cases h
          · by_cases hpre : p0 <+: q
            · rw [hin q hpre] at h; cases h
            · rw [hout q hpre] at h
              obtain ⟨p, hp, hv⟩ := (hf.data q d).1 h
              exact ⟨p, hp, fun hpp => hq (hpp ▸ hp), hv⟩
        · rintro ⟨p, hp, hpp, hv⟩
          have hpre : ¬ p0 <+: q := hp ▸ hval p hpp (by simp [hv])
          have hfq : f q = some (.data d) := (hf.data q d).2 ⟨p, hp, hv⟩
          rw [if_neg, hout q hpre, hfq]
          rintro ⟨-, -, hnone⟩
          rw [hout q hpre, hfq] at hnone
          simp at hnone
    · intro q
      unfold putData
      by_cases hq : q = p0 ++ ["data"]
      · rw [if_pos hq]
        constructor
        · intro h; cases h
        · rintro ⟨-, p, hs, hpre⟩
          exfalso
          have hp0 : p0 <+: p := by
            rw [hq] at hpre; exact (List.prefix_append _ _).trans hpre
          have : p = p0 := by
            by_cases h : p = p0
            · exact h
            · rw [if_neg h] at hs; exact hself' p hs hp0
          subst this
          rw [hq] at hpre
          exact not_append_prefix hpre
      · rw [if_neg hq]
        beta_reduce
        constructor
        · intro h
          split at h
          · rename_i hc
            exact ⟨hc.1, p0, by simp, hc.2.1⟩
          · by_cases hpre : p0 <+: q
            · rw [hin q hpre] at h; cases h
            · rw [hout q hpre] at h
              obtain ⟨h1, p, hs, hp⟩ := (hf.group q).1 h
              refine ⟨h1, p, ?_, hp⟩
              split <;> simp [hs]
        · rintro ⟨h1, p, hs, hp⟩
          by_cases hfq : f' q = none
          · -- a prefix of `p0`
            have hqp : q <+: p0 := by
              by_cases hpp : p = p0
              · exact hpp ▸ hp
              · rw [if_neg hpp] at hs
                by_cases hpre : p0 <+: q
                · exact absurd (hself' p hs (hpre.trans hp)) hpp
                · rw [hout q hpre] at hfq
                  have := (hf.group q).2 ⟨h1, p, hs, hp⟩
                  rw [this] at hfq; cases hfq
            rw [if_pos ⟨h1, hqp, by simp [hfq]⟩]
          · have hpre : ¬ p0 <+: q := fun h => hfq (hin q h)
            rw [if_neg (by
              rintro ⟨-, -, h⟩
              exact hfq (by simpa using h)), hout q hpre]
            by_cases hpp : p = p0
            · subst hpp
              cases hfn : f q with
              | none => rw [hout q hpre] at hfq; exact absurd hfn hfq
              | some n =>
                cases n with
                | group => rfl
                | data d => exact absurd hfn (hnodata q d hp)
            · rw [if_neg hpp] at hs
              exact (hf.group q).2 ⟨h1, p, hs, hp⟩
  cases hp0 : f p0 with
  | none =>
    have hin : ∀ q, p0 <+: q → f q = none := by
      intro q hq
      cases hfq : f q with
      | none => rfl
      | some n =>
        exfalso
        have hex : ∃ p, (val p).isSome ∧ p0 <+: p := by
          cases n with
          | group =>
            obtain ⟨-, p, hs, hp⟩ := (hf.group q).1 hfq
            exact ⟨p, hs, hq.trans hp⟩
          | data d =>
            obtain ⟨p, rfl, hv⟩ := (hf.data q d).1 hfq
            rcases prefix_append_data hq with h | h
            · exact ⟨p, by simp [hv], h⟩
            · rw [← h, hp0] at hfq; cases hfq
        obtain ⟨p, hs, hp⟩ := hex
        have := (hf.group p0).2 ⟨hne, p, hs, hp⟩
        rw [hp0] at this; cases this
    obtain ⟨g, hg, hh⟩ := main f hp0 (fun _ _ => rfl) hin
    exact ⟨_, by unfold put; rw [hg], hh⟩
  | some n =>
    have hc : createGroup f p0 = .error .valueError := by
      unfold createGroup; rw [if_pos (by simp [hp0])]
    have hd : delete f p0 = .ok fun q => if p0 <+: q then none else f q := by
      unfold delete; rw [if_neg (by simp [hp0])]
    obtain ⟨g, hg, hh⟩ := main (fun q => if p0 <+: q then none else f q)
      (by simp) (fun q hq => by simp [hq]) (fun q hq => by simp [hq])
    exact ⟨_, by unfold put; simp only [hc, hd, hg], hh⟩

/-- An empty file. -/
def emptyFile {D : Type} : File D := fun _ => none

lemma holds_empty {D : Type} : Holds (emptyFile (D := D)) (fun _ => none) := by
  constructor
  · intro q d
    constructor
    · intro h; cases h
    · rintro ⟨p, -, h⟩; cases h
  · intro q
    constructor
    · intro h; cases h
    · rintro ⟨-, p, h, -⟩; simp at h

lemma holds_read {D : Type} {f : File D} {val : Path → Option D} (h : Holds f val) (p : Path) :
    readData f p = val p := by
  unfold readData
  cases hv : val p with
  | some d => rw [(h.data _ d).2 ⟨p, rfl, hv⟩]
  | none =>
    cases hf : f (p ++ ["data"]) with
    | none => rfl
    | some n =>
      cases n with
      | group => rfl
      | data d =>
        obtain ⟨p', hp, hv'⟩ := (h.data _ d).1 hf
        rw [← append_data_inj hp, hv] at hv'
        cases hv'

lemma putAll_run {D : Type} (adds : List (Path × D)) (hne : ∀ a ∈ adds, a.1 ≠ []) :
    ∀ (f : File D) (val : Path → Option D), Holds f val →
      Antichain (fun p => (val p).isSome ∨ p ∈ adds.map (·.1)) →
      ∃ g val', putAll f adds = .ok g ∧ Holds g val' ∧
        (∀ p, p ∉ adds.map (·.1) → val' p = val p) ∧
        ∀ pre p d post, adds = pre ++ (p, d) :: post → p ∉ post.map (·.1) → val' p = some d := by
  induction adds with
  | nil =>
    intro f val hf _
    refine ⟨f, val, rfl, hf, fun _ _ => rfl, ?_⟩
    intro pre p d post h
    simp at h
  | cons a rest ih =>
    obtain ⟨p0, d0⟩ := a
    intro f val hf hanti
    obtain ⟨g, hg, hh⟩ := put_step hf d0 (hne (p0, d0) (by simp)) (by
      intro p q hp hq
      refine hanti p q ?_ ?_
      · rcases hp with hp | hp
        · exact Or.inl hp
        · exact Or.inr (by simp [hp])
      · rcases hq with hq | hq
        · exact Or.inl hq
        · exact Or.inr (by simp [hq]))
    obtain ⟨g', val', e1, e2, e3, e4⟩ := ih (fun a ha => hne a (by simp [ha])) g _ hh (by
      intro p q hp hq
      have aux : ∀ p, ((if p = p0 then some d0 else val p).isSome ∨ p ∈ rest.map (·.1)) →
          (val p).isSome ∨ p ∈ ((p0, d0) :: rest).map (·.1) := by
        intro p h
        rcases h with h | h
        · by_cases hp : p = p0
          · exact Or.inr (by simp [hp])
          · rw [if_neg hp] at h; exact Or.inl h
        · exact Or.inr (List.mem_cons_of_mem _ h)
      exact hanti p q (aux p hp) (aux q hq))
    refine ⟨g', val', by unfold putAll; rw [hg]; exact e1, e2, ?_, ?_⟩
    · intro p hp
      simp only [List.map_cons, List.mem_cons, not_or] at hp
      rw [e3 p hp.2, if_neg hp.1]
    · intro pre p d post h hpost
      cases pre with
      | nil =>
        simp only [List.nil_append, List.cons.injEq, Prod.mk.injEq] at h
        obtain ⟨⟨rfl, rfl⟩, rfl⟩ := h
        rw [e3 _ hpost, if_pos rfl]
      | cons b pre =>
        simp only [List.cons_append, List.cons.injEq] at h
        exact e4 pre p d post h.2 hpost

/-- **C40 (pixel file, partial: exposure names not nested in one another).** From an empty file, any
sequence of additions succeeds; reading an exposure returns the data added last for it, and nothing
else can be read. -/
theorem C40_pixels_partial {D : Type} (adds : List (Path × D)) (hne : ∀ a ∈ adds, a.1 ≠ [])
    (hanti : ∀ p ∈ adds.map (·.1), ∀ q ∈ adds.map (·.1), p <+: q → p = q) :
    ∃ f, putAll emptyFile adds = .ok f ∧
      (∀ pre p d post, adds = pre ++ (p, d) :: post → p ∉ post.map (·.1) → readData f p = some d) ∧
      ∀ p, p ∉ adds.map (·.1) → readData f p = none := by
  obtain ⟨g, val', e1, e2, e3, e4⟩ := putAll_run adds hne emptyFile (fun _ => none) holds_empty (by
    intro p q hp hq
    exact hanti p (by simpa using hp) q (by simpa using hq))
  refine ⟨g, e1, ?_, ?_⟩
  · intro pre p d post h hp
    rw [holds_read e2, e4 pre p d post h hp]
  · intro p hp
    rw [holds_read e2, e3 p hp]

/-- Non-vacuity: two exposures of one band and a second version of the first. -/
example : ∃ f : File Nat, putAll emptyFile [(["F200W", "a"], 1), (["F200W", "b"], 2),
      (["F200W", "a"], 3)] = .ok f ∧ readData f ["F200W", "a"] = some 3 ∧
      readData f ["F200W", "b"] = some 2 ∧ readData f ["F200W", "c"] = none := by
  obtain ⟨f, h1, h2, h3⟩ := C40_pixels_partial (D := Nat)
    [(["F200W", "a"], 1), (["F200W", "b"], 2), (["F200W", "a"], 3)] (by decide) (by decide)
  exact ⟨f, h1, h2 [(["F200W", "a"], 1), (["F200W", "b"], 2)] _ _ [] rfl (by decide),
    h2 [(["F200W", "a"], 1)] _ _ [(["F200W", "a"], 3)] rfl (by decide), h3 _ (by decide)⟩

lemma createGroup_ok {D : Type} {f g : File D} {p : Path} (h : createGroup f p = .ok g) :
    g = fun q => if q ≠ [] ∧ q <+: p ∧ (f q).isNone then some .group else f q := by
  unfold createGroup at h
  split at h
  · cases h
  · split at h
    · cases h
    · cases h; rfl

/-- **C40 is refuted for nested exposure names**: writing an exposure whose name is a directory of
another stored exposure deletes that other exposure. -/
theorem C40_refuted_nested {D : Type} {f g : File D} {p q : Path} {d : D} (hpq : p <+: q)
    (hne : p ≠ q) (hex : (f p).isSome) (h : put f p d = .ok g) : readData g q = none := by
  unfold put at h
  have hc : createGroup f p = .error .valueError := by
    unfold createGroup; rw [if_pos hex]
  have hd : delete f p = .ok fun q => if p <+: q then none else f q := by
    unfold delete
    rw [if_neg (by simpa using Option.isSome_iff_ne_none.1 hex)]
  rw [hc] at h
  simp only [hd] at h
  split at h
  · cases h
  · rename_i g' hg'
    cases h
    rw [createGroup_ok hg']
    have hq : q ++ ["data"] ≠ p ++ ["data"] := fun he => hne (append_data_inj he).symm
    have hpre : p <+: q ++ ["data"] := hpq.trans (List.prefix_append _ _)
    have hnot : ¬ q ++ ["data"] <+: p := by
      intro hh
      have h1 := hh.length_le
      have h2 := hpq.length_le
      simp at h1
      omega
    unfold readData putData
    simp [hne.symm, hpre, hnot]

/-- Concrete: exposures `x/y` and then `x` of one band; `x/y` is gone. -/
example : ((putAll (emptyFile (D := Nat)) [(["F200W", "x", "y"], 1), (["F200W", "x"], 2)]).toOption.map
    fun f => (readData f ["F200W", "x", "y"], readData f ["F200W", "x"])) = some (none, some 2) := by
  decide

/-- **C40, failure below a dataset.** An exposure whose name leads through an existing dataset,
such as the pixels of another exposure, is not stored: the call raises `KeyError`. -/
theorem C40_below_dataset {D : Type} (f : File D) (p q : Path) (d d' : D) (hq : q <+: p)
    (hne : q ≠ p) (hd : f q = some (.data d)) (hp : f p = none) :
    put f p d' = .error .keyError := by
  have hb : blocked f p = true := by
    unfold blocked
    rw [List.any_eq_true]
    exact ⟨q, (List.mem_inits _ _).2 hq, by simp [hne, hd]⟩
  have hc : createGroup f p = .error .valueError := by
    unfold createGroup
    rw [if_neg (by simp [hp]), if_pos hb]
  unfold put
  rw [hc]
  simp [delete, hp]

/-- Concrete: an exposure `x`, then one named `x/data/y`. -/
example : ∃ e, putAll (emptyFile (D := Nat)) [(["F200W", "x"], 1), (["F200W", "x", "data", "y"], 2)]
    = .error e ∧ e = .keyError := ⟨_, rfl, by decide⟩

/-! ## C40 metadata -/

lemma dget_dset {V : Type} (d : Dict V) (k k' : String) (v : V) :
    dget (dset d k v) k' = if k' = k then some v else dget d k' := by
  induction d with
  | nil =>
    by_cases h : k' = k
    · simp [dset, dget, h]
    · simp [dset, dget, h, Ne.symm h]
  | cons x r ih =>
    obtain ⟨a, w⟩ := x
    unfold dset
    by_cases ha : a = k
    · rw [if_pos ha]
      subst ha
      by_cases h : k' = a
      · simp [dget, h]
      · simp [dget, h, Ne.symm h]
    · rw [if_neg ha]
      unfold dget
      by_cases h : a = k'
      · rw [if_pos h, if_pos h, if_neg (by rw [← h]; exact ha)]
      · rw [if_neg h, if_neg h, ih]

lemma getMeta_addMeta {H : Type} (h : Dict (Dict H)) (b e b' e' : String) (x : H) :
    getMeta (addMeta h b e x) b' e' = if b' = b ∧ e' = e then some x else getMeta h b' e' := by
  unfold getMeta addMeta
  simp only [dget_dset]
  by_cases hb : b' = b
  · subst hb
    simp only [if_true, Option.bind_some, dget_dset, true_and]
    split
    · rfl
    · cases hd : dget h b' with
      | none => simp [dget_dset, dget]
      | some d => simp [hd]
  · simp only [hb, if_false, false_and]
    split
    · rfl
    · rw [dget_dset, if_neg hb]

/-- Additions to an empty metadata store. -/
def metaAll {H : Type} (adds : List (String × String × H)) : Dict (Dict H) :=
  adds.foldl (fun h a => addMeta h a.1 a.2.1 a.2.2) []

/-- **C40 (metadata).** After any sequence of additions, the header of an exposure is the one added
last for it, and exposures never added are absent. -/
theorem C40_metadata {H : Type} (adds : List (String × String × H)) :
    (∀ pre b e x post, adds = pre ++ (b, e, x) :: post →
      (∀ a ∈ post, ¬ (a.1 = b ∧ a.2.1 = e)) → getMeta (metaAll adds) b e = some x) ∧
    ∀ b e, (∀ a ∈ adds, ¬ (a.1 = b ∧ a.2.1 = e)) → getMeta (metaAll adds) b e = none := by
  have keep : ∀ (post : List (String × String × H)) (h : Dict (Dict H)) (b e : String),
      (∀ a ∈ post, ¬ (a.1 = b ∧ a.2.1 = e)) →
      getMeta (post.foldl (fun h a => addMeta h a.1 a.2.1 a.2.2) h) b e = getMeta h b e := by
    intro post
    induction post with
    | nil => intro h b e _; rfl
    | cons a post ih =>
      intro h b e hp
      rw [List.foldl_cons, ih _ _ _ (fun a' ha' => hp a' (by simp [ha'])), getMeta_addMeta,
        if_neg]
      intro hc
      exact hp a (by simp) ⟨hc.1.symm, hc.2.symm⟩
  constructor
  · intro pre b e x post h hp
    subst h
    unfold metaAll
    rw [List.foldl_append, List.foldl_cons, keep _ _ _ _ hp, getMeta_addMeta, if_pos ⟨rfl, rfl⟩]
  · intro b e hp
    unfold metaAll
    rw [keep _ _ _ _ hp]
    rfl

lemma nexp_eq {H : Type} (h : Dict (Dict H)) : nexp h = (h.map fun b => b.2.length).sum := by
  have : ∀ (l : Dict (Dict H)) (n : Nat),
      l.foldl (fun n b => n + b.2.length) n = n + (l.map fun b => b.2.length).sum := by
    intro l
    induction l with
    | nil => intro n; simp
    | cons a l ih => intro n; rw [List.foldl_cons, ih]; simp [Nat.add_assoc]
  rw [nexp, this]; simp

lemma dset_length {V : Type} (d : Dict V) (k : String) (v : V) :
    (dset d k v).length = d.length + if (dget d k).isSome then 0 else 1 := by
  induction d with
  | nil => simp [dset, dget]
  | cons x r ih =>
    obtain ⟨a, w⟩ := x
    unfold dset dget
    by_cases ha : a = k
    · simp [ha]
    · simp only [ha, if_false, List.length_cons, ih]
      omega

lemma nexp_dset {H : Type} (h : Dict (Dict H)) (b : String) (d : Dict H) :
    nexp (dset h b d) + ((dget h b).getD []).length = nexp h + d.length := by
  rw [nexp_eq, nexp_eq]
  induction h with
  | nil => simp [dset, dget]
  | cons x r ih =>
    obtain ⟨a, w⟩ := x
    unfold dset dget
    by_cases ha : a = b
    · simp [ha]; omega
    · simp only [ha, if_false, List.map_cons, List.sum_cons]
      omega

lemma nexp_addMeta {H : Type} (h : Dict (Dict H)) (b e : String) (x : H) :
    nexp (addMeta h b e x) = nexp h + if (getMeta h b e).isSome then 0 else 1 := by
  unfold addMeta getMeta
  cases hb : dget h b with
  | some d =>
    simp only [Option.isSome_some, if_true, hb, Option.getD_some, Option.bind_some]
    have := nexp_dset h b (dset d e x)
    rw [hb, Option.getD_some, dset_length] at this
    split at this <;> split <;> simp_all <;> omega
  | none =>
    simp only [Option.isSome_none, Bool.false_eq_true, if_false, dget_dset, if_true,
      Option.getD_some, Option.bind_none]
    have h1 := nexp_dset (dset h b []) b (dset [] e x)
    have h2 := nexp_dset h b []
    rw [dget_dset, if_pos rfl] at h1
    simp only [hb, Option.getD_some, Option.getD_none, List.length_nil] at h1 h2
    have h3 : (dset ([] : Dict H) e x).length = 1 := by simp [dset]
    omega

lemma getMeta_some_iff {H : Type} (adds : List (String × String × H)) (b e : String) :
    (getMeta (metaAll adds) b e).isSome ↔ (b, e) ∈ adds.map fun a => (a.1, a.2.1) := by
  induction adds using List.reverseRecOn with
  | nil => simp [metaAll, getMeta, dget]
  | append_singleton l a ih =>
    have : metaAll (l ++ [a]) = addMeta (metaAll l) a.1 a.2.1 a.2.2 := by
      simp [metaAll, List.foldl_append]
    rw [this, getMeta_addMeta]
    by_cases h : b = a.1 ∧ e = a.2.1
    · simp [h]
    · rw [if_neg h, ih]
      simp only [List.map_append, List.map_cons, List.map_nil, List.mem_append, List.mem_singleton,
        Prod.mk.injEq]
      tauto

/-- **C40 (count).** The number of exposures reported is the number of distinct (band, name) pairs
ever added. -/
theorem C40_count {H : Type} (adds : List (String × String × H)) :
    nexp (metaAll adds) = (adds.map fun a => (a.1, a.2.1)).toFinset.card := by
  induction adds using List.reverseRecOn with
  | nil => simp [metaAll, nexp]
  | append_singleton l a ih =>
    have h1 : metaAll (l ++ [a]) = addMeta (metaAll l) a.1 a.2.1 a.2.2 := by
      simp [metaAll, List.foldl_append]
    have h2 : ((l ++ [a]).map fun a => (a.1, a.2.1)).toFinset
        = insert (a.1, a.2.1) (l.map fun a => (a.1, a.2.1)).toFinset := by
      ext x; simp [or_comm]
    rw [h1, nexp_addMeta, h2, Finset.card_insert_eq_ite, ih]
    have h3 := getMeta_some_iff l a.1 a.2.1
    by_cases hc : (a.1, a.2.1) ∈ l.map fun a => (a.1, a.2.1)
    · rw [if_pos (h3.2 hc), if_pos (List.mem_toFinset.2 hc), Nat.add_zero]
    · rw [if_neg (fun h => hc (h3.1 h)), if_neg (fun h => hc (List.mem_toFinset.1 h))]

/-! ### The JSON file -/

/-- Keys occur once. -/
def Uniq {V : Type} (d : Dict V) : Prop := (d.map (·.1)).Nodup

lemma dset_keys {V : Type} (d : Dict V) (k : String) (v : V) :
    (dset d k v).map (·.1) = if (dget d k).isSome then d.map (·.1) else d.map (·.1) ++ [k] := by
  induction d with
  | nil => simp [dset, dget]
  | cons x r ih =>
    obtain ⟨a, w⟩ := x
    unfold dset dget
    by_cases ha : a = k
    · simp [ha]
    · simp only [ha, if_false, List.map_cons, ih]
      split <;> simp

lemma dget_isSome_iff {V : Type} (d : Dict V) (k : String) :
    (dget d k).isSome ↔ k ∈ d.map (·.1) := by
  induction d with
  | nil => simp [dget]
  | cons x r ih =>
    obtain ⟨a, w⟩ := x
    unfold dget
    by_cases ha : a = k
    · simp [ha]
    · rw [if_neg ha, ih]
      simp [Ne.symm ha]

lemma uniq_dset {V : Type} {d : Dict V} (h : Uniq d) (k : String) (v : V) : Uniq (dset d k v) := by
  unfold Uniq at *
  rw [dset_keys]
  split
  · exact h
  · rename_i hk
    rw [List.nodup_append]
    refine ⟨h, by simp, ?_⟩
    intro a ha b hb
    simp at hb
    subst hb
    rintro rfl
    exact hk ((dget_isSome_iff d _).2 ha)

lemma dset_new {V : Type} (d : Dict V) (k : String) (v : V) (h : k ∉ d.map (·.1)) :
    dset d k v = d ++ [(k, v)] := by
  induction d with
  | nil => rfl
  | cons x r ih =>
    obtain ⟨a, w⟩ := x
    simp only [List.map_cons, List.mem_cons, not_or] at h
    unfold dset
    rw [if_neg (Ne.symm h.1), ih h.2]
    rfl

lemma foldl_dset {A V : Type} (key : A → String) (val : A → V) (l : List A)
    (hu : (l.map key).Nodup) :
    l.foldl (fun o a => dset o (key a) (val a)) [] = l.map fun a => (key a, val a) := by
  have gen : ∀ (l : List A) (acc : Dict V), (acc.map (·.1) ++ l.map key).Nodup →
      l.foldl (fun o a => dset o (key a) (val a)) acc = acc ++ l.map fun a => (key a, val a) := by
    intro l
    induction l with
    | nil => intro acc _; simp
    | cons a l ih =>
      intro acc hacc
      rw [List.foldl_cons, dset_new]
      · rw [ih]
        · simp
        · simpa using hacc
      · intro hc
        exact (List.nodup_append.1 hacc).2.2 _ hc _ (by simp) rfl
  simpa using gen l [] (by simpa using hu)

lemma mem_dset {V : Type} {d : Dict V} {k : String} {v : V} {x : String × V}
    (h : x ∈ dset d k v) : x = (k, v) ∨ x ∈ d := by
  induction d with
  | nil => simp [dset] at h; exact Or.inl h
  | cons y r ih =>
    obtain ⟨a, w⟩ := y
    unfold dset at h
    split at h
    · rcases List.mem_cons.1 h with h | h
      · exact Or.inl h
      · exact Or.inr (by simp [h])
    · rcases List.mem_cons.1 h with h | h
      · exact Or.inr (by simp [h])
      · rcases ih h with h | h
        · exact Or.inl h
        · exact Or.inr (by simp [h])

lemma dget_mem {V : Type} {d : Dict V} {k : String} {v : V} (h : dget d k = some v) : (k, v) ∈ d := by
  induction d with
  | nil => cases h
  | cons y r ih =>
    obtain ⟨a, w⟩ := y
    unfold dget at h
    split at h
    · rename_i ha
      cases h
      subst ha
      simp
    · simp [ih h]

lemma uniq_metaAll {H : Type} (adds : List (String × String × H)) :
    Uniq (metaAll adds) ∧ ∀ b ∈ metaAll adds, Uniq b.2 := by
  induction adds using List.reverseRecOn with
  | nil => simp [metaAll, Uniq]
  | append_singleton l a ih =>
    have h1 : metaAll (l ++ [a]) = addMeta (metaAll l) a.1 a.2.1 a.2.2 := by
      simp [metaAll, List.foldl_append]
    rw [h1]
    obtain ⟨i1, i2⟩ := ih
    have step : ∀ h : Dict (Dict H), Uniq h → (∀ b ∈ h, Uniq b.2) →
        Uniq (dset h a.1 (dset ((dget h a.1).getD []) a.2.1 a.2.2)) ∧
        ∀ b ∈ dset h a.1 (dset ((dget h a.1).getD []) a.2.1 a.2.2), Uniq b.2 := by
      intro h u1 u2
      refine ⟨uniq_dset u1 _ _, ?_⟩
      intro b hb
      rcases mem_dset hb with rfl | hb
      · apply uniq_dset
        cases hd : dget h a.1 with
        | none => simp [Uniq]
        | some d => exact u2 _ (dget_mem hd)
      · exact u2 b hb
    unfold addMeta
    simp only
    split
    · exact step _ i1 i2
    · refine step _ (uniq_dset i1 _ _) ?_
      intro b hb
      rcases mem_dset hb with rfl | hb
      · simp [Uniq]
      · exact i2 b hb

/-- **C40 (round trip).** Writing the metadata to a file and reading it back restores every
band, exposure and header, in the same order, if the header's own text form round-trips. -/
theorem C40_json {H : Type} (toStr : H → String) (fromStr : String → H)
    (hrt : ∀ h, fromStr (toStr h) = h) (adds : List (String × String × H)) :
    readMeta fromStr (writeMeta toStr (metaAll adds)) = metaAll adds := by
  obtain ⟨u1, u2⟩ := uniq_metaAll adds
  generalize metaAll adds = h at u1 u2
  have inner : ∀ b ∈ h, b.2.foldl (fun o e => dset o e.1 (toStr e.2)) []
      = b.2.map fun e => (e.1, toStr e.2) := by
    intro b hb
    exact foldl_dset (fun e : String × H => e.1) (fun e => toStr e.2) b.2 (u2 b hb)
  have w : writeMeta toStr h = h.map fun b => (b.1, b.2.map fun e => (e.1, toStr e.2)) := by
    unfold writeMeta
    rw [foldl_dset (fun b : String × Dict H => b.1) _ h u1]
    exact List.map_congr_left fun b hb => by rw [inner b hb]
  rw [w]
  unfold readMeta
  rw [foldl_dset (fun b : String × Dict String => b.1) _ _ (by simpa [Uniq, Function.comp_def] using u1), List.map_map]
  conv_rhs => rw [← List.map_id h]
  apply List.map_congr_left
  intro b hb
  simp only [Function.comp]
  rw [foldl_dset (fun e : String × String => e.1) (fun e => fromStr e.2) _
    (by simpa [Uniq, Function.comp_def] using u2 b hb), List.map_map]
  have : (b.2.map ((fun a : String × String => (a.1, fromStr a.2)) ∘ fun e : String × H =>
      (e.1, toStr e.2))) = b.2 := by
    conv_rhs => rw [← List.map_id b.2]
    apply List.map_congr_left
    intro e _
    simp [hrt]
  rw [this]
  rfl

example : nexp (metaAll [("F200W", "a", 1), ("F090W", "a", 2), ("F200W", "a", 3)]) = 2 ∧
    getMeta (metaAll [("F200W", "a", 1), ("F090W", "a", 2), ("F200W", "a", 3)]) "F200W" "a"
      = some 3 := by decide

/-! ## C71 the cached astrometry -/

/-- The cached astrometry, if any. -/
def cached {H W : Type} (m : MetaState H W) (b e : String) : Option W :=
  (dget m.wcs b).bind fun x => dget x e

/-- Every cached solution is the one of the current header. -/
def Fresh {H W : Type} (mk : H → W) (m : MetaState H W) : Prop :=
  ∀ b e w, cached m b e = some w → ∃ h, getMeta m.headers b e = some h ∧ w = mk h

lemma cached_step {W : Type} (c : Dict (Dict W)) (b e b' e' : String) :
    ((dget (if (dget c b).isSome then c else dset c b []) b').bind fun x => dget x e')
      = (dget c b').bind fun x => dget x e' := by
  split
  · rfl
  · rename_i hn
    rw [dget_dset]
    split
    · rename_i h
      subst h
      simp only [Option.isSome_iff_ne_none, ne_eq, not_not] at hn
      simp [hn, dget]
    · rfl

/-- **C71 (partial).** While every cached solution belongs to its current header, a coverage query
uses the astrometry of the current header and keeps it so; adding an exposure not yet cached keeps
it so too. -/
theorem C71_fresh_partial {H W : Type} (mk : H → W) {m : MetaState H W} (hm : Fresh mk m) :
    (∀ b e w m', m.wcsOf mk b e = some (w, m') →
      (∃ h, getMeta m.headers b e = some h ∧ w = mk h) ∧ Fresh mk m' ∧ m'.headers = m.headers) ∧
    ∀ b e h, cached m b e = none → Fresh mk (m.add b e h) := by
  constructor
  · intro b e w m' hw
    unfold MetaState.wcsOf at hw
    obtain ⟨hdr, hh, hw⟩ := Option.map_eq_some_iff.1 hw
    set cache := if (dget m.wcs b).isSome then m.wcs else dset m.wcs b [] with hcache
    have hc : ∀ b' e', ((dget cache b').bind fun x => dget x e') = cached m b' e' := by
      intro b' e'; exact cached_step m.wcs b e b' e'
    cases hce : (dget cache b).bind fun x => dget x e with
    | some w0 =>
      simp only [hce] at hw
      cases hw
      have h1 : cached m b e = some w := by rw [← hc b e]; exact hce
      obtain ⟨h, e1, e2⟩ := hm b e w h1
      refine ⟨⟨h, e1, e2⟩, ?_, rfl⟩
      intro b' e' w' hw'
      exact hm b' e' w' (by rw [← hc b' e']; exact hw')
    | none =>
      simp only [hce] at hw
      cases hw
      refine ⟨⟨hdr, hh, rfl⟩, ?_, rfl⟩
      intro b' e' w' hw'
      unfold cached at hw'
      simp only [dget_dset] at hw'
      by_cases hb : b' = b
      · subst hb
        simp only [if_true, Option.bind_some, dget_dset] at hw'
        by_cases he : e' = e
        · subst he
          simp only [if_true, Option.some.injEq] at hw'
          exact ⟨hdr, hh, hw'.symm⟩
        · simp only [he, if_false] at hw'
          refine hm b' e' w' ?_
          rw [← hc b' e']
          cases hd : dget cache b' with
          | none => rw [hd] at hw'; simp [dget] at hw'
          | some x => rw [hd] at hw'; simpa using hw'
      · simp only [hb, if_false] at hw'
        exact hm b' e' w' (by rw [← hc b' e']; exact hw')
  · intro b e h hnone b' e' w' hw'
    have h1 : cached m b' e' = some w' := hw'
    obtain ⟨h0, e1, e2⟩ := hm b' e' w' h1
    refine ⟨h0, ?_, e2⟩
    unfold MetaState.add
    simp only
    rw [getMeta_addMeta, if_neg, e1]
    rintro ⟨rfl, rfl⟩
    rw [hnone] at h1; cases h1

/-- **C71 is refuted in general**: after an exposure has been queried, replacing its header leaves
the old astrometry in use. -/
theorem C71_refuted {H W : Type} (mk : H → W) (m : MetaState H W) {b e : String} {w : W}
    (hc : cached m b e = some w) (h : H) :
    ∃ m', (m.add b e h).wcsOf mk b e = some (w, m') ∧
      getMeta (m.add b e h).headers b e = some h := by
  have hg : getMeta (m.add b e h).headers b e = some h := by
    unfold MetaState.add; simp only; rw [getMeta_addMeta, if_pos ⟨rfl, rfl⟩]
  unfold cached at hc
  obtain ⟨x, hx, hxe⟩ := Option.bind_eq_some_iff.1 hc
  refine ⟨m.add b e h, ?_, hg⟩
  unfold MetaState.wcsOf
  rw [hg]
  have hx' : dget (m.add b e h).wcs b = some x := hx
  simp only [Option.map_some, hx', Option.isSome_some, if_true, Option.bind_some, hxe]

/-- Concrete: header 1 is queried, then replaced by 2; the answer stays 1. -/
example :
    let m : MetaState Nat Nat := ⟨addMeta [] "F200W" "a" 1, []⟩
    ((m.wcsOf id "F200W" "a").bind fun r => ((r.2.add "F200W" "a" 2).wcsOf id "F200W" "a").map (·.1))
      = some 1 := by decide

/-! ## C72 the layout of an existing store -/

/-- **C72.** Opening a store that has a layout uses that layout, whatever the arguments, and leaves
it; opening one without writes the arguments, and every later opening uses them. -/
theorem C72_layout (nside sps nside' sps' : Nat) :
    (∀ n s, openStore (some n) (some s) nside sps = ((n, s), (some n, some s))) ∧
    (∀ a b, ¬ (a.isSome ∧ b.isSome) →
      (openStore a b nside sps).1 = (nside, sps) ∧
      (openStore (openStore a b nside sps).2.1 (openStore a b nside sps).2.2 nside' sps').1
        = (nside, sps)) := by
  refine ⟨fun n s => rfl, ?_⟩
  intro a b h
  cases a <;> cases b <;> simp_all [openStore]

end Forcepho.Storage
