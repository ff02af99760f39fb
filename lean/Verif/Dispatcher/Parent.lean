import Verif.Dispatcher.Queue
import Verif.SuperScene.Props

/-! Property C20 of the parent loop. -/

set_option autoImplicit false

namespace Forcepho.Dispatcher

open Forcepho.SuperScene

variable {K B C : Type} [CommRing K] [LinearOrder K]

omit [CommRing K] [LinearOrder K] in
/-- The scene invariant does not depend on the order of the outstanding regions. -/
theorem sinv_perm {n : Nat} {s : State K B C} {o o' : List (Held K)} (h : o.Perm o')
    (H : SInv n (Sys.mk s o)) : SInv n (Sys.mk s o') where
  len := H.len
  index := H.index
  heldLt := fun x hx => H.heldLt x (h.mem_iff.2 hx)
  heldNodup := fun x hx => H.heldNodup x (h.mem_iff.2 hx)
  actNodup := (h.flatMap_right _).nodup_iff.1 H.actNodup
  flag := fun i r hr => (H.flag i r hr).trans (h.flatMap_right _).mem_iff
  nAct := by
    have := H.nAct
    simp only at this ⊢
    rw [this, (h.flatMap_right _).length_eq]
  nFix := by
    have := H.nFix
    simp only at this ⊢
    rw [this, (h.flatMap_right _).length_eq]

/-- Regions of the outstanding tasks. -/
def outs (p : Parent K B C) : List (Held K) := p.q.handles.map fun x => x.2.2

theorem tryCheckout_spec {E : Env K} {cfg : Config K} {n : Nat} (hE : E.OK n)
    {out : List (Held K)} : ∀ (seeds : List Nat) (s : State K B C), SInv n (Sys.mk s out) →
    (∃ e, tryCheckout E cfg s seeds = (s, .error e)) ∨
    (tryCheckout E cfg s seeds = (s, .ok none) ∧ (seeds ≠ [] → out ≠ [])) ∨
    (∃ s' h, tryCheckout E cfg s seeds = (s', .ok (some h)) ∧ SInv n (Sys.mk s' (out ++ [h])) ∧
      s'.patchlog = s.patchlog) := by
  intro seeds
  induction seeds with
  | nil => intro s _; exact Or.inr (Or.inl ⟨rfl, fun h => absurd rfl h⟩)
  | cons k ks ih =>
    intro s H
    rw [tryCheckout]
    rcases checkout_cases E cfg s k with ⟨e, h⟩ | h | ⟨seed, radius, act, fix, hk, hg, h⟩
    · rw [h]; exact Or.inl ⟨e, rfl⟩
    · rw [h]
      have hout : out ≠ [] := by
        rintro rfl
        unfold checkout at h
        split at h
        · cases h
        rename_i seed hk
        simp only at h
        have hno : getCircularScene E cfg s (seed.par.ra, seed.par.dec) ≠ .ok none := by
          intro hg
          obtain ⟨i, hc, ha⟩ := (C10_when E cfg n hE s _).2.1.1 hg
          unfold activeOf at ha
          split at ha
          · rename_i r hr
            have := (H.flag i r hr).1 ha
            simp at this
          · cases ha
        split at h
        · cases h
        · rename_i hg; exact hno hg
        · exact absurd (congrArg Prod.snd h) (by simp)
      rcases ih s H with ⟨e, h'⟩ | ⟨h', _⟩ | h'
      · exact Or.inl ⟨e, h'⟩
      · exact Or.inr (Or.inl ⟨h', fun _ => hout⟩)
      · exact Or.inr (Or.inr h')
    · right; right
      have hI := inv_checkout (E := E) (cfg := cfg) hE (Sys.mk s out) H k
      simp only [step, h] at hI
      rw [h]
      exact ⟨_, _, rfl, hI, rfl⟩

omit [CommRing K] [LinearOrder K] in
theorem checkinAll_spec {n : Nat} (draws : Int) (tid : Nat) :
    ∀ (rs : List (Nat × Held K)) (reps : List (List (Params K) × Option (List C)))
      (s : State K B C) (rest : List (Held K)),
      List.Forall₂ (fun r rep => rep.1.length = r.2.active.length) rs reps →
      SInv n (Sys.mk s (rs.map (·.2) ++ rest)) →
      ∃ s', checkinAll draws tid s (rs.zip reps) = (s', none) ∧ SInv n (Sys.mk s' rest) ∧
        s'.patchlog = s.patchlog ++ List.replicate rs.length (toString tid) := by
  intro rs
  induction rs with
  | nil => intro reps s rest _ H; exact ⟨s, rfl, H, by simp⟩
  | cons r rs ih =>
    intro reps s rest hF H
    obtain ⟨hp, hF'⟩ : ∃ rep reps', reps = rep :: reps' ∧ rep.1.length = r.2.active.length ∧
        List.Forall₂ (fun r rep => rep.1.length = r.2.active.length) rs reps' := by
      cases hF with
      | cons h t => exact ⟨_, _, rfl, h, t⟩
    obtain ⟨reps', rfl, hlen, hF'⟩ := hF'
    have hj : (Sys.mk s ((r :: rs).map (·.2) ++ rest)).out[0]? = some r.2 := by simp
    have hb : ∀ b : List B, (none : Option (List B)) = some b →
        b.length = r.2.active.length ∨ b.length = 1 := by intro b hb; cases hb
    obtain ⟨c1, c2, c3, c4, c5, c6⟩ := checkin_held _ H 0 r.2 hj hp.1 draws hp.2 none
      (some (toString tid)) hlen hb
    obtain ⟨s1, hs1, H1⟩ := inv_release _ H 0 r.2 hj _ c1 c2 c6
    obtain ⟨s1', hs1', _, _, _, _, hpl, _⟩ := checkin_ok s
      (heldArgs r.2 hp.1 draws hp.2 none (some (toString tid)))
      (by rw [c1]; exact c3) (by rw [c2]; exact c4) (by rw [c1]; exact c5) c6
    have e : s1' = s1 := by
      have := hs1'.symm.trans hs1
      exact (Prod.mk.inj this).1
    rw [e] at hpl
    obtain ⟨s2, hs2, H2, hl2⟩ := ih reps' s1 rest hF' (by simpa using H1)
    refine ⟨s2, ?_, H2, ?_⟩
    · simp only [List.zip_cons_cons, checkinAll]
      rw [show checkin s (heldArgs r.2 hp.1 draws hp.2 none (some (toString tid))) = (s1, none)
        from hs1]
      exact hs2
    · rw [hl2, hpl]
      simp [heldArgs, List.replicate_succ]

/-- Invariant of the parent loop with `n` sources and `w` workers. -/
structure PInv (n w : Nat) (p : Parent K B C) : Prop where
  scene : SInv n (Sys.mk p.sup (outs p))
  queue : QInv w p.q
  idle : p.q.idle ≠ []
  ids : (p.trace.map (·.1) ++ p.q.handles.map fun x => x.2.1).Perm (List.range' 1 p.taskid)
  logs : p.sup.patchlog = p.trace.map fun e => toString e.2
  le : ∀ e ∈ p.trace, e.1 ≤ e.2 ∧ e.2 ≤ p.taskid
  cat : p.patchcat.map (·.1) = List.range' 1 p.taskid
  catOut : ∀ x ∈ p.q.handles, (x.2.1, x.2.2.active.map (·.sourceIndex)) ∈ p.patchcat

/-- Invariant just after a proposal: as `PInv`, but all workers may be busy. -/
structure PInv1 (n w : Nat) (p : Parent K B C) : Prop where
  scene : SInv n (Sys.mk p.sup (outs p))
  queue : QInv w p.q
  out : p.q.handles ≠ []
  ids : (p.trace.map (·.1) ++ p.q.handles.map fun x => x.2.1).Perm (List.range' 1 p.taskid)
  logs : p.sup.patchlog = p.trace.map fun e => toString e.2
  le : ∀ e ∈ p.trace, e.1 ≤ e.2 ∧ e.2 ≤ p.taskid
  cat : p.patchcat.map (·.1) = List.range' 1 p.taskid
  catOut : ∀ x ∈ p.q.handles, (x.2.1, x.2.2.active.map (·.sourceIndex)) ∈ p.patchcat

theorem propose_spec {E : Env K} {cfg : Config K} {n w : Nat} (hE : E.OK n) (p : Parent K B C)
    (H : PInv n w p) (inp : Input K C) (hs : inp.seeds ≠ []) :
    (∃ e, propose E cfg p inp = (p, .error (.scene e))) ∨
    (propose E cfg p inp = (p, .ok false) ∧ PInv1 n w p) ∨
    (∃ p1, propose E cfg p inp = (p1, .ok true) ∧ PInv1 n w p1 ∧ p1.taskid = p.taskid + 1 ∧
      p1.trace = p.trace ∧ p1.q.handles.length = p.q.handles.length + 1 ∧
      p1.q.idle = p.q.idle.tail) := by
  unfold propose
  rcases tryCheckout_spec (cfg := cfg) hE inp.seeds p.sup H.scene with ⟨e, h⟩ | ⟨h, ho⟩ |
    ⟨s', h, ht, hI, hpl⟩
  · left; rw [h]; exact ⟨e, rfl⟩
  · right; left; rw [h]
    refine ⟨rfl, H.scene, H.queue, ?_, H.ids, H.logs, H.le, H.cat, H.catOut⟩
    have := ho hs
    intro hn; apply this; simp [outs, hn]
  · right; right; rw [ht]
    rcases submit_cases p.q H.queue (p.taskid + 1, h) with ⟨hi, _⟩ | ⟨c, rest, hi, hsub⟩
    · exact absurd hi H.idle
    have hq := qinv_submit p.q H.queue (p.taskid + 1, h)
    simp only [hsub] at hq ⊢
    refine ⟨_, rfl, ⟨?_, hq, by simp, ?_, ?_, ?_, ?_, ?_⟩, rfl, rfl, by simp, by simp [hi]⟩
    · simpa [outs] using hI
    · simp only [List.map_append, List.map_cons, List.map_nil, ← List.append_assoc]
      rw [List.range'_concat]
      simp only [Nat.one_mul]
      rw [Nat.add_comm 1 p.taskid]
      exact H.ids.append_right _
    · exact hpl.trans H.logs
    · intro e he; have := H.le e he; simp only; omega
    · simp only [List.map_append, List.map_cons, List.map_nil, H.cat]
      rw [List.range'_concat]
      simp [Nat.add_comm]
    · intro x hx
      rw [List.mem_append] at hx ⊢
      rcases hx with hx | hx
      · exact Or.inl (H.catOut x hx)
      · right
        simp only [List.mem_singleton] at hx ⊢
        rw [hx]

/-- One legal pass: either a checkout raises, or the pass succeeds, keeps the invariant and makes
progress. -/
theorem pass_spec {E : Env K} {cfg : Config K} {draws : Int} {n w : Nat} (hE : E.OK n)
    (p : Parent K B C) (H : PInv n w p) (inp : Input K C) (hL : LegalIn E cfg p inp) :
    (∃ e, (propose E cfg p inp).2 = .error (.scene e) ∧
      pass E cfg draws p inp = (p, some (.scene e))) ∨
    (∃ p2, pass E cfg draws p inp = (p2, none) ∧ PInv n w p2 ∧
      (p.taskid < p2.taskid ∨ p.trace.length < p2.trace.length) ∧
      (w = 1 → p2.q.handles = [] ∧ (p.q.handles = [] → ∃ t, p2.trace = p.trace ++ [(t, t)]))) := by
  unfold pass
  obtain ⟨hs, hL⟩ := hL
  have key : ∀ p1 got, propose E cfg p inp = (p1, .ok got) → PInv1 n w p1 →
      p1.trace = p.trace → (got = true → p.taskid < p1.taskid) →
      (p.q.handles = [] → p1.q.handles.length = 1) →
      (∃ p2, absorb draws p1 got inp = (p2, none) ∧ PInv n w p2 ∧
      (p.taskid < p2.taskid ∨ p.trace.length < p2.trace.length) ∧
      (w = 1 → p2.q.handles = [] ∧ (p.q.handles = [] → ∃ t, p2.trace = p.trace ++ [(t, t)]))) := by
    intro p1 got hp H1 htr hgot hone
    obtain ⟨hleg, hrep⟩ := hL p1 got hp
    have hball : blockingOf p1 got ≠ .all := by
      unfold blockingOf; split <;> simp
    rcases collect_cases p1.q H1.queue _ inp.answer hleg with ⟨_, hb, _⟩ | ⟨hh, _⟩ |
      ⟨hh, _⟩ | ⟨hh, q', idx, hc, Hq', _, hnd, hlt, hne, _, ⟨freed, hf, hfp⟩, hperm⟩
    · exact absurd hb hball
    · exact absurd hh H1.out
    · exact absurd hh H1.out
    have hF := hrep q' _ hc
    set coll := idx.filterMap fun i => p1.q.handles[i]? with hcoll
    have hres : (idx.filterMap fun i => (p1.q.handles[i]?).map (·.2)) = coll.map (·.2) := by
      rw [hcoll, List.map_filterMap]
    rw [hres] at hc hF
    have hscene : SInv n (Sys.mk p1.sup ((coll.map (·.2)).map (·.2) ++
        q'.handles.map fun x => x.2.2)) := by
      refine sinv_perm ?_ H1.scene
      have := hperm.map (fun x => x.2.2)
      rw [List.map_append] at this
      simpa [outs, List.map_map, Function.comp_def] using this
    obtain ⟨s', hci, Hs', hpl⟩ := checkinAll_spec draws p1.taskid (coll.map (·.2)) inp.replies
      p1.sup _ hF hscene
    simp only [absorb, hc, hci]
    have hids2 : (p1.trace.map (·.1) ++ (coll.map fun x => x.2.1) ++
        q'.handles.map fun x => x.2.1).Perm (List.range' 1 p1.taskid) := by
      refine List.Perm.trans ?_ H1.ids
      rw [List.append_assoc]
      refine List.Perm.append_left _ ?_
      have := hperm.map (fun x => x.2.1)
      rw [List.map_append] at this
      exact this.symm
    have hidle : q'.idle ≠ [] := by
      rw [hf]
      by_cases hi : p1.q.idle = []
      · have hb : blockingOf p1 got = .one := by simp [blockingOf, hi]
        have := hne (by rw [hb]; simp)
        obtain ⟨i, t, rfl⟩ : ∃ i t, idx = i :: t := by
          cases idx with
          | nil => exact absurd rfl this
          | cons i t => exact ⟨i, t, rfl⟩
        have hg : p1.q.handles[i]? = some (p1.q.handles[i]'(hlt i (by simp))) :=
          List.getElem?_eq_getElem _
        have hl := hfp.length_eq
        rw [hcoll] at hl
        simp only [List.filterMap_cons, hg, List.map_cons, List.length_cons] at hl
        intro h0
        rw [hi, List.nil_append] at h0
        rw [h0] at hl
        simp at hl
      · simp [hi]
    refine ⟨_, rfl, ⟨?_, Hq', hidle, ?_, ?_, ?_, H1.cat, ?_⟩, ?_, ?_⟩
    · exact Hs'
    · simpa [List.map_map, Function.comp_def] using hids2
    · rw [hpl, H1.logs, List.map_append, List.map_map, List.length_map]
      congr 1
      apply List.ext_getElem
      · simp
      · intro i h1 h2; simp
    · intro e he
      rw [List.mem_append] at he
      rcases he with he | he
      · exact H1.le e he
      · rw [List.map_map, List.mem_map] at he
        obtain ⟨x, hx, rfl⟩ := he
        refine ⟨?_, le_refl _⟩
        have : x.2.1 ∈ List.range' 1 p1.taskid := by
          refine hids2.mem_iff.1 ?_
          exact List.mem_append_left _ (List.mem_append_right _ (List.mem_map_of_mem hx))
        rw [List.mem_range'_1] at this
        simp only [Function.comp_apply]
        omega
    · intro x hx
      exact H1.catOut x (hperm.mem_iff.2 (List.mem_append_right _ hx))
    · cases hg : got with
      | true => exact Or.inl (hgot hg)
      | false =>
        right
        have hb : blockingOf p1 got = .one := by simp [blockingOf, hg]
        have := hne (by rw [hb]; simp)
        obtain ⟨i, t, rfl⟩ : ∃ i t, idx = i :: t := by
          cases idx with
          | nil => exact absurd rfl this
          | cons i t => exact ⟨i, t, rfl⟩
        have hg : p1.q.handles[i]? = some (p1.q.handles[i]'(hlt i (by simp))) :=
          List.getElem?_eq_getElem _
        rw [htr, hcoll]
        simp [hg]
    · intro hw
      have hwl := H1.queue.workers.length_eq
      have hwl' := Hq'.workers.length_eq
      rw [List.length_append, List.length_range'] at hwl hwl'
      have e1 := H1.queue.lenh
      have e2 := Hq'.lenh
      have hi0 : 0 < q'.idle.length := List.length_pos_iff.2 hidle
      have hq0 : q'.handles = [] := List.eq_nil_of_length_eq_zero (by omega)
      refine ⟨hq0, ?_⟩
      intro hp0
      have h1 := hone hp0
      have hpl := hperm.length_eq
      rw [hq0, List.append_nil, h1] at hpl
      -- the only outstanding task is the newest
      obtain ⟨x, hx⟩ : ∃ x, coll = [x] := List.length_eq_one_iff.1 hpl.symm
      have hx1 : p1.q.handles = [x] := by
        rw [hq0, List.append_nil, hx] at hperm
        exact List.perm_singleton.1 hperm
      refine ⟨p1.taskid, ?_⟩
      rw [htr, hx]
      simp only [List.map_cons, List.map_nil]
      congr 3
      -- ids of `p` are 1..taskid, so the new one is the next
      have hgt : got = true := by
        cases hg : got with
        | true => rfl
        | false =>
          exfalso
          rcases propose_spec (cfg := cfg) hE p H inp hs with ⟨e, h⟩ | ⟨h, H'⟩ | ⟨p1', h, _⟩
          · rw [h] at hp; cases hp
          · exact H'.out hp0
          · rw [h, hg] at hp; cases hp
      rcases propose_spec (cfg := cfg) hE p H inp hs with ⟨e, h⟩ | ⟨h, _⟩ | ⟨p1', h, _, ht, _⟩
      · rw [h] at hp; cases hp
      · rw [h, hgt] at hp; cases hp
      · rw [h] at hp
        obtain rfl := (Prod.mk.inj hp).1
        have hids := H.ids
        rw [hp0, List.map_nil, List.append_nil] at hids
        have hids1 := H1.ids
        rw [htr, hx1, ht, List.range'_concat] at hids1
        simp only [List.map_cons, List.map_nil] at hids1
        have := (hids.append_right [1 + 1 * p.taskid]).trans hids1.symm
        have := (List.perm_append_left_iff _).1 this
        have := List.perm_singleton.1 this
        simp only [List.cons.injEq, and_true] at this
        omega
  rcases propose_spec (cfg := cfg) hE p H inp hs with ⟨e, h⟩ | ⟨h, H1⟩ | ⟨p1, h, H1, ht, htr, hl, _⟩
  · left; rw [h]; exact ⟨e, rfl, rfl⟩
  · right; rw [h]
    exact key p false h H1 rfl (by simp) (fun h0 => absurd h0 H1.out)
  · right; rw [h]
    exact key p1 true h H1 htr (fun _ => by omega) (fun h0 => by rw [hl, h0]; rfl)

omit [CommRing K] [LinearOrder K] in
theorem pinv_start {n w : Nat} (s : State K B C) (hs : SInv n (Sys.mk s [])) (hp : s.patchlog = [])
    (hw : 1 ≤ w) : PInv n w (start s w) where
  scene := hs
  queue := qinv_init w
  idle := by
    cases w with
    | zero => omega
    | succ w => simp [start, Queue.init, List.range'_succ]
  ids := by simp [start, Queue.init]
  logs := by simp [start, hp]
  le := by simp [start]
  cat := by simp [start]
  catOut := by simp [start, Queue.init]

theorem loop_inv {E : Env K} {cfg : Config K} {draws : Int} {n w : Nat} (hE : E.OK n)
    {p p' : Parent K B C} (h : Loop E cfg draws p p') (H : PInv n w p) : PInv n w p' := by
  induction h with
  | refl => exact H
  | pass inp _ _ hL hp ih =>
    rcases pass_spec (draws := draws) hE _ ih inp hL with ⟨e, _, h⟩ | ⟨p2, h, H2, _⟩
    · rw [h] at hp; cases hp
    · rw [h] at hp
      obtain rfl := (Prod.mk.inj hp).1
      exact H2

theorem loop_one {E : Env K} {cfg : Config K} {draws : Int} {n : Nat} (hE : E.OK n)
    {p p' : Parent K B C} (h : Loop E cfg draws p p') (H : PInv n 1 p)
    (h0 : p.q.handles = []) (ht : ∀ e ∈ p.trace, e.1 = e.2) :
    p'.q.handles = [] ∧ ∀ e ∈ p'.trace, e.1 = e.2 := by
  induction h with
  | refl => exact ⟨h0, ht⟩
  | pass inp hl _ hL hp ih =>
    have Hi := loop_inv hE hl H
    rcases pass_spec (draws := draws) hE _ Hi inp hL with ⟨e, _, h⟩ | ⟨p2, h, H2, _, h3⟩
    · rw [h] at hp; cases hp
    · rw [h] at hp
      obtain rfl := (Prod.mk.inj hp).1
      obtain ⟨h4, h5⟩ := h3 rfl
      obtain ⟨t, h6⟩ := h5 ih.1
      refine ⟨h4, ?_⟩
      intro e he
      rw [h6, List.mem_append] at he
      rcases he with he | he
      · exact ih.2 e he
      · simp only [List.mem_singleton] at he
        rw [he]

omit [CommRing K] [LinearOrder K] in
theorem finish_spec {n w : Nat} (p : Parent K B C) (H : PInv n w p) :
    ∃ p' res, finish p = (p', .ok res) ∧ res.Perm (p.q.handles.map (·.2)) ∧ p'.sup = p.sup ∧
      p'.q.busy = [] ∧ p'.q.idle.Perm (List.range' 1 w) ∧
      p'.q.sent = p.q.sent ++ (List.range' 1 w).map fun c => (c, none) := by
  unfold finish
  rcases collect_cases p.q H.queue .all none trivial with ⟨hh, _, h⟩ | ⟨_, h, _⟩ | ⟨_, h, _⟩ |
    ⟨_, q', idx, h, Hq, hsent, _, _, _, hall, _, hp⟩
  · rw [h]
    have hb : p.q.busy = [] := by rw [← H.queue.align, hh]; rfl
    rcases closeout_cases p.q H.queue with ⟨_, h'⟩ | ⟨h', _⟩
    · simp only [h']
      refine ⟨_, _, rfl, by simp [hh], rfl, hb, ?_, rfl⟩
      have := H.queue.workers
      rwa [hb, List.append_nil] at this
    · exact absurd hb h'
  · cases h
  · cases h
  · rw [h]
    have hq := hall rfl
    have hb : q'.busy = [] := by rw [← Hq.align, hq]; rfl
    rcases closeout_cases q' Hq with ⟨_, h'⟩ | ⟨h', _⟩
    · simp only [h']
      refine ⟨_, _, rfl, ?_, rfl, hb, ?_, by rw [hsent]⟩
      · rw [hq, List.append_nil] at hp
        rw [← List.map_filterMap]
        exact (hp.map _).symm
      · have := Hq.workers
        rwa [hb, List.append_nil] at this
    · exact absurd hb h'

omit [CommRing K] [LinearOrder K] in
/-- Rows flagged active, as a set of indices. -/
def ActiveRow (s : State K B C) (i : Nat) : Prop :=
  ∃ r, s.rows[i]? = some r ∧ r.isActive = true

/-- C20, partial: for every schedule with at least one worker, after any number of passes
* the next pass can only fail because a checkout raised (in particular the queue never fails and
  no check-in fails), and otherwise it submits a task or checks in at least one result;
* tasks are numbered 1, 2, …; each was checked in exactly once or is still out; results are
  logged under an id not older than their own;
* the sources flagged active are exactly those of the regions still out, no source twice;
* stopping succeeds: stragglers are received, all workers end idle and get one stop message.
Missing: stragglers are *not* checked in and the logged id can be wrong; see the refutations.  -/
theorem C20_partial (E : Env K) (cfg : Config K) (draws : Int) (cat : List (Row K))
    (hE : E.OK cat.length) (bounds : List B) (one : C) (w : Nat) (hw : 1 ≤ w)
    (p : Parent K B C) (hp : Loop E cfg draws (start (ingest cat bounds one) w) p) :
    (∀ inp, LegalIn E cfg p inp →
      (∃ e, (propose E cfg p inp).2 = .error (.scene e) ∧
        pass E cfg draws p inp = (p, some (.scene e))) ∨
      (∃ p2, pass E cfg draws p inp = (p2, none) ∧
        (p.taskid < p2.taskid ∨ p.trace.length < p2.trace.length))) ∧
    (p.trace.map (·.1) ++ p.q.handles.map fun x => x.2.1).Perm (List.range' 1 p.taskid) ∧
    p.sup.patchlog = (p.trace.map fun e => toString e.2) ∧
    (∀ e ∈ p.trace, e.1 ≤ e.2 ∧ e.2 ≤ p.taskid) ∧
    p.patchcat.map (·.1) = List.range' 1 p.taskid ∧
    (∀ x ∈ p.q.handles, (x.2.1, x.2.2.active.map (·.sourceIndex)) ∈ p.patchcat) ∧
    (p.q.handles.flatMap fun x => x.2.2.active.map (·.sourceIndex)).Nodup ∧
    ∃ p' res, finish p = (p', .ok res) ∧ res.Perm (p.q.handles.map (·.2)) ∧
      p'.sup = p.sup ∧ p'.q.busy = [] ∧
      p'.q.sent = p.q.sent ++ (List.range' 1 w).map (fun c => (c, none)) ∧
      ∀ i, ActiveRow p'.sup i ↔ ∃ r ∈ res, i ∈ r.2.active.map (·.sourceIndex) := by
  have H : PInv cat.length w p := loop_inv hE hp
    (pinv_start _ (inv_fresh cat bounds one) rfl hw)
  refine ⟨?_, H.ids, H.logs, H.le, H.cat, H.catOut, ?_, ?_⟩
  · intro inp hL
    rcases pass_spec (draws := draws) hE p H inp hL with h | ⟨p2, h, _, hpr, _⟩
    · exact Or.inl h
    · exact Or.inr ⟨p2, h, hpr⟩
  · have := H.scene.actNodup
    simpa [outs, List.flatMap_map, Held.actIdx] using this
  · obtain ⟨p', res, h1, h2, h3, h4, _, h6⟩ := finish_spec p H
    refine ⟨p', res, h1, h2, h3, h4, h6, ?_⟩
    intro i
    rw [h3]
    have hm : (∃ r ∈ res, i ∈ r.2.active.map (·.sourceIndex)) ↔ i ∈ (outs p).flatMap Held.actIdx := by
      simp only [List.mem_flatMap, outs, Held.actIdx]
      constructor
      · rintro ⟨r, hr, hi⟩
        have := h2.mem_iff.1 hr
        obtain ⟨x, hx, rfl⟩ := List.mem_map.1 this
        exact ⟨x.2.2, List.mem_map_of_mem (f := fun x => x.2.2) hx, hi⟩
      · rintro ⟨h, hh, hi⟩
        obtain ⟨x, hx, rfl⟩ := List.mem_map.1 hh
        exact ⟨x.2, h2.mem_iff.2 (List.mem_map_of_mem hx), hi⟩
    rw [hm]
    constructor
    · rintro ⟨r, hr, ha⟩
      exact (H.scene.flag i r hr).1 ha
    · intro hi
      obtain ⟨h, hh, hi'⟩ := List.mem_flatMap.1 hi
      have hlt := H.scene.heldLt h hh i (List.mem_append_left _ hi')
      rw [← H.scene.len] at hlt
      exact ⟨_, List.getElem?_eq_getElem hlt, (H.scene.flag i _ (List.getElem?_eq_getElem hlt)).2 hi⟩

/-- C20 holds in full with a single worker: whenever the loop has run, every region has been
checked in under the id of its own task, and no source is active. -/
theorem C20_one_worker (E : Env K) (cfg : Config K) (draws : Int) (cat : List (Row K))
    (hE : E.OK cat.length) (bounds : List B) (one : C)
    (p : Parent K B C) (hp : Loop E cfg draws (start (ingest cat bounds one) 1) p) :
    (∀ e ∈ p.trace, e.1 = e.2) ∧ (p.trace.map (·.1)).Perm (List.range' 1 p.taskid) ∧
    (∀ i, ¬ ActiveRow p.sup i) ∧ p.sup.nActive = 0 ∧ p.q.busy = [] := by
  have H0 := pinv_start (w := 1) _ (inv_fresh cat bounds one) rfl (le_refl 1)
  have H := loop_inv hE hp H0
  obtain ⟨h1, h2⟩ := loop_one hE hp H0 rfl (by simp [start])
  have ho : outs p = [] := by simp [outs, h1]
  refine ⟨h2, ?_, ?_, ?_, ?_⟩
  · have := H.ids
    rwa [h1, List.map_nil, List.append_nil] at this
  · rintro i ⟨r, hr, ha⟩
    have := (H.scene.flag i r hr).1 ha
    simp [ho] at this
  · have := H.scene.nAct
    simpa [ho] using this
  · rw [← H.queue.align, h1]; rfl

/-- C20 (waiting): a pass may go on without any finished task exactly if some worker is idle, a region was
just granted, and the sources out with workers are fewer than half of all; otherwise it waits for a result. -/
theorem C20_wait (E : Env K) (cfg : Config K) (draws : Int) (cat : List (Row K))
    (hE : E.OK cat.length) (bounds : List B) (one : C) (w : Nat) (hw : 1 ≤ w)
    (p : Parent K B C) (hp : Loop E cfg draws (start (ingest cat bounds one) w) p)
    (inp : Input K C) (hs : inp.seeds ≠ []) (p1 : Parent K B C) (got : Bool)
    (h1 : propose E cfg p inp = (p1, .ok got)) :
    Legal p1.q (blockingOf p1 got) (some []) ↔ p1.q.idle ≠ [] ∧ got = true ∧
      2 * (p1.q.handles.map fun x => x.2.2.active.length).sum < cat.length := by
  have H : PInv cat.length w p := loop_inv hE hp
    (pinv_start _ (inv_fresh cat bounds one) rfl hw)
  have H1 : PInv1 cat.length w p1 := by
    rcases propose_spec (cfg := cfg) hE p H inp hs with ⟨e, h⟩ | ⟨h, h'⟩ | ⟨p2, h, h', -⟩
    · rw [h] at h1; cases h1
    · rw [h] at h1; cases h1; exact h'
    · rw [h] at h1; cases h1; exact h'
  have hact : p1.sup.nActive = (((p1.q.handles.map fun x => x.2.2.active.length).sum : Nat) : Int) := by
    have := H1.scene.nAct
    rw [this]
    simp [outs, List.length_flatMap, Held.actIdx, List.map_map, Function.comp_def]
  have hlen : p1.sup.rows.length = cat.length := H1.scene.len
  unfold blockingOf sparse
  rw [hact, hlen]
  have hcast : (2 * (((p1.q.handles.map fun x => x.2.2.active.length).sum : Nat) : Int) < (cat.length : Int)) ↔
      2 * (p1.q.handles.map fun x => x.2.2.active.length).sum < cat.length := by norm_cast
  simp only [hcast]
  by_cases hc : p1.q.idle = [] ∨
      decide (2 * (p1.q.handles.map fun x => x.2.2.active.length).sum < cat.length) = false ∨ got = false
  · rw [if_pos hc]
    constructor
    · intro h
      obtain ⟨l, hl, hne, -⟩ := h H1.out
      exact absurd (Option.some.inj hl).symm hne
    · rintro ⟨a, b, c⟩
      rcases hc with h | h | h
      · exact absurd h a
      · rw [decide_eq_false_iff_not] at h; exact absurd c h
      · rw [b] at h; cases h
  · rw [if_neg hc]
    push Not at hc
    obtain ⟨a, b, c⟩ := hc
    constructor
    · intro _
      exact ⟨a, by simpa using c, by simpa using b⟩
    · intro _
      exact ⟨fun h => absurd h H1.out, fun _ => ⟨[], rfl, by simp, by simp⟩⟩

/-! ## Concrete schedules -/

/-- Executable check of `Legal`. -/
def legalB {α : Type} (q : Queue α) (b : Blocking) (answer : Option (List Nat)) : Bool :=
  match b, answer with
  | .all, _ => true
  | .one, some l => decide (l ≠ []) && decide l.Nodup && l.all fun i => decide (i < q.handles.length)
  | .one, none => false
  | .no, some l => decide (0 < q.handles.length) && decide l.Nodup &&
      l.all fun i => decide (i < q.handles.length)
  | .no, none => decide (q.handles.length = 0)

omit [CommRing K] [LinearOrder K] in
theorem legalB_sound {α : Type} (q : Queue α) (b : Blocking) (answer : Option (List Nat))
    (h : legalB q b answer = true) : Legal q b answer := by
  unfold legalB at h
  split at h
  · trivial
  · simp only [Bool.and_eq_true, decide_eq_true_eq, List.all_eq_true] at h
    exact fun _ => ⟨_, rfl, h.1.1, h.1.2, h.2⟩
  · cases h
  · simp only [Bool.and_eq_true, decide_eq_true_eq, List.all_eq_true] at h
    refine ⟨fun h0 => ?_, fun _ => ⟨_, rfl, h.1.2, h.2⟩⟩
    rw [h0] at h; simp at h
  · simp only [decide_eq_true_eq] at h
    exact ⟨fun _ => rfl, fun h0 => absurd (List.eq_nil_of_length_eq_zero h) h0⟩

/-- Executable check of the replies. -/
def repliesB : List (Nat × Held K) → List (List (Params K) × Option (List C)) → Bool
  | [], [] => true
  | r :: rs, rep :: reps => decide (rep.1.length = r.2.active.length) && repliesB rs reps
  | _, _ => false

omit [CommRing K] [LinearOrder K] in
theorem repliesB_sound : ∀ (rs : List (Nat × Held K)) (reps : List (List (Params K) × Option (List C))),
    repliesB rs reps = true →
    List.Forall₂ (fun r rep => rep.1.length = r.2.active.length) rs reps
  | [], [], _ => List.Forall₂.nil
  | r :: rs, rep :: reps, h => by
    simp only [repliesB, Bool.and_eq_true, decide_eq_true_eq] at h
    exact List.Forall₂.cons h.1 (repliesB_sound rs reps h.2)
  | [], _ :: _, h => by cases h
  | _ :: _, [], h => by cases h

/-- Executable check of `LegalIn`. -/
def legalInB (E : Env K) (cfg : Config K) (p : Parent K B C) (inp : Input K C) : Bool :=
  !inp.seeds.isEmpty &&
  match propose E cfg p inp with
  | (_, .error _) => true
  | (p1, .ok got) =>
    legalB p1.q (blockingOf p1 got) inp.answer &&
    match collect p1.q (blockingOf p1 got) inp.answer with
    | (_, .error _) => true
    | (_, .ok res) => repliesB res inp.replies

theorem legalInB_sound (E : Env K) (cfg : Config K) (p : Parent K B C) (inp : Input K C)
    (h : legalInB E cfg p inp = true) : LegalIn E cfg p inp := by
  unfold legalInB at h
  rw [Bool.and_eq_true] at h
  obtain ⟨h1, h2⟩ := h
  refine ⟨by intro h0; simp [h0] at h1, ?_⟩
  intro p1 got hp
  rw [hp] at h2
  simp only [Bool.and_eq_true] at h2
  refine ⟨legalB_sound _ _ _ h2.1, ?_⟩
  intro q' res hc
  rw [hc] at h2
  exact repliesB_sound _ _ h2.2

/-- Passes with given inputs, all legal, undone before each and without exception. -/
def okRun (E : Env K) (cfg : Config K) (draws : Int) : Parent K B C → List (Input K C) → Bool
  | _, [] => true
  | p, i :: is => undone cfg p.sup && legalInB E cfg p i && (pass E cfg draws p i).2.isNone &&
      okRun E cfg draws (pass E cfg draws p i).1 is

/-- The state after passes with given inputs. -/
def passes (E : Env K) (cfg : Config K) (draws : Int) (p : Parent K B C) (is : List (Input K C)) :
    Parent K B C := is.foldl (fun p i => (pass E cfg draws p i).1) p

theorem okRun_sound (E : Env K) (cfg : Config K) (draws : Int) (p0 : Parent K B C) :
    ∀ (is : List (Input K C)) (p : Parent K B C), Loop E cfg draws p0 p →
      okRun E cfg draws p is = true → Loop E cfg draws p0 (passes E cfg draws p is) := by
  intro is
  induction is with
  | nil => intro p h _; exact h
  | cons i is ih =>
    intro p h hk
    simp only [okRun, Bool.and_eq_true] at hk
    obtain ⟨⟨⟨h1, h2⟩, h3⟩, h4⟩ := hk
    refine ih _ (Loop.pass i h h1 (legalInB_sound _ _ _ _ h2) ?_) h4
    have : (pass E cfg draws p i).2 = none := by simpa using h3
    rw [← this]

/-- Four sources far apart on a line. -/
def catP : List (Row Int) := [mkRow 0 0, mkRow 10 0, mkRow 20 0, mkRow 30 0]
/-- Its geometry. -/
def envP : Env Int := lineEnv [0, 10, 20, 30]
/-- Each region holds one source; five iterations are wanted. -/
def cfgP : Config Int where
  targetNiter := 5
  maxactive := 2
  nscale := 1
  boundaryRadius := 4
  maxradius := 3
  minradius := 1

/-- The parent with two workers before the loop. -/
def startP : Parent Int Nat Nat := start (ingest catP [0, 0, 0, 0] 1) 2

/-- One pass: draw seed `k`; the receives `idx` are complete, results placed at `x`. -/
def inP (k : Nat) (idx : List Nat) (x : Int) : Input Int Nat where
  seeds := [k]
  answer := some idx
  replies := idx.map fun _ => ([(mkRow x 0).par], none)

/-- The worker given the first task is slow; the other one does the rest and is busy with a
second fit of source 1 when the slow result arrives. -/
def schedP : List (Input Int Nat) := [inP 0 [] 0, inP 1 [1] 10, inP 2 [1] 20, inP 3 [1] 30, inP 1 [0] 0]

/-- C20 is false of the code (1): in a legal run the loop ends normally and all workers stop,
yet a source is left active because the straggler's result is dropped. -/
theorem C20_refuted_straggler :
    ∃ p p' res, Loop envP cfgP 5 startP p ∧ envP.OK catP.length ∧ undone cfgP p.sup = false ∧
      finish p = (p', .ok res) ∧ res.length = 1 ∧ p'.sup.nActive = 1 ∧ ActiveRow p'.sup 1 := by
  refine ⟨passes envP cfgP 5 startP schedP, _, _,
    okRun_sound _ _ _ _ schedP startP (Loop.refl _) (by decide +kernel), lineEnv_ok _,
    by decide +kernel, rfl, by decide +kernel, by decide +kernel, ?_⟩
  have : ((passes envP cfgP 5 startP schedP).sup.rows[1]?).map (·.isActive) = some true := by
    decide +kernel
  obtain ⟨r, hr, ha⟩ := Option.map_eq_some_iff.1 this
  exact ⟨r, hr, ha⟩

/-- C20 is false of the code (2): a legal run in which the result of task 1 is logged under
task 2 (and nothing under task 1). -/
theorem C20_refuted_taskid :
    ∃ p, Loop envP cfgP 5 startP p ∧ p.trace = [(1, 2)] ∧ p.sup.patchlog = ["2"] ∧
      logGet p.sup.sourcelog 0 = some ["2"] :=
  ⟨passes envP cfgP 5 startP [inP 0 [] 0, inP 1 [0] 0],
    okRun_sound _ _ _ _ _ startP (Loop.refl _) (by decide +kernel),
    by decide +kernel, by decide +kernel, by decide +kernel⟩

/-- A run meeting the hypotheses of `C20_one_worker`. -/
example : ∃ p, Loop envP cfgP 5 (start (ingest catP [0, 0, 0, 0] 1 : State Int Nat Nat) 1) p ∧
    p.trace = [(1, 1), (2, 2), (3, 3), (4, 4)] ∧ undone cfgP p.sup = false :=
  ⟨passes envP cfgP 5 _ [inP 0 [0] 0, inP 1 [0] 10, inP 2 [0] 20, inP 3 [0] 30],
    okRun_sound _ _ _ _ _ _ (Loop.refl _) (by decide +kernel),
    by decide +kernel, by decide +kernel⟩

end Forcepho.Dispatcher
