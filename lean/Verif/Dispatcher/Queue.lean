import Verif.Dispatcher.Model
import Mathlib.Data.List.Perm.Basic

/-! Properties C17–C19 of the work queue. -/

set_option autoImplicit false

namespace Forcepho.Dispatcher

variable {α : Type}

/-- Invariant of the queue. -/
structure QInv (n : Nat) (q : Queue α) : Prop where
  size : q.n = n
  workers : (q.idle ++ q.busy).Perm (List.range' 1 n)
  align : q.handles.map (·.1) = q.busy

theorem QInv.nodup {n : Nat} {q : Queue α} (H : QInv n q) : (q.idle ++ q.busy).Nodup :=
  H.workers.nodup_iff.2 List.nodup_range'

theorem QInv.lenh {n : Nat} {q : Queue α} (H : QInv n q) : q.handles.length = q.busy.length := by
  rw [← H.align, List.length_map]

theorem qinv_init (n : Nat) : QInv n (Queue.init n : Queue α) := ⟨rfl, by simp [Queue.init], rfl⟩

theorem submit_cases {n : Nat} (q : Queue α) (H : QInv n q) (t : α) :
    (q.idle = [] ∧ submit q t = (q, .error .runtimeError)) ∨
    ∃ c rest, q.idle = c :: rest ∧ submit q t =
      ({ q with idle := rest, sent := q.sent ++ [(c, some t)], handles := q.handles ++ [(c, t)],
                busy := q.busy ++ [c] }, .ok c) := by
  unfold submit
  cases hi : q.idle with
  | nil => exact Or.inl ⟨rfl, rfl⟩
  | cons c rest =>
    right
    refine ⟨c, rest, rfl, ?_⟩
    have hn := H.nodup
    rw [hi] at hn
    have : c ∉ q.busy := by
      intro hc
      exact (List.nodup_cons.1 hn).1 (List.mem_append_right _ hc)
    simp [this]

theorem qinv_submit {n : Nat} (q : Queue α) (H : QInv n q) (t : α) : QInv n (submit q t).1 := by
  rcases submit_cases q H t with ⟨_, h⟩ | ⟨c, rest, hi, h⟩
  · rw [h]; exact H
  · rw [h]
    refine ⟨H.size, ?_, ?_⟩
    · refine List.Perm.trans ?_ H.workers
      rw [hi]
      simp only
      rw [← List.append_assoc]
      exact List.perm_append_comm
    · simp [H.align]

theorem eraseIdx_getElem?_lt {β : Type} (l : List β) (i j : Nat) (h : j < i) :
    (l.eraseIdx i)[j]? = l[j]? := by
  rw [List.getElem?_eraseIdx]; simp [h]

theorem eraseIdx_perm {β : Type} (l : List β) (i : Nat) (x : β) (h : l[i]? = some x) :
    l.Perm (x :: l.eraseIdx i) := by
  induction l generalizing i with
  | nil => simp at h
  | cons a t ih =>
    cases i with
    | zero => simp at h; subst h; simp
    | succ i =>
      simp only [List.getElem?_cons_succ] at h
      simp only [List.eraseIdx_cons_succ]
      exact ((ih i h).cons a).trans (List.Perm.swap _ _ _)

/-- The release loop over strictly decreasing valid indices. -/
theorem release_spec : ∀ (is : List Nat) (q : Queue α), q.handles.map (·.1) = q.busy →
    is.Pairwise (· > ·) → (∀ i ∈ is, i < q.handles.length) →
    ∃ q', release q is = (q', none) ∧ q'.n = q.n ∧ q'.sent = q.sent ∧
      q'.idle = q.idle ++ is.filterMap (fun i => q.busy[i]?) ∧
      q'.handles.map (·.1) = q'.busy ∧
      q.handles.Perm (is.filterMap (fun i => q.handles[i]?) ++ q'.handles) := by
  intro is
  induction is with
  | nil => intro q h _ _; exact ⟨q, rfl, rfl, rfl, by simp, h, by simp⟩
  | cons i is ih =>
    intro q h hp hlt
    have hi := hlt i (by simp)
    have hlen : q.busy.length = q.handles.length := by rw [← h, List.length_map]
    have hb : q.busy[i]? = some (q.busy[i]'(hlen ▸ hi)) := List.getElem?_eq_getElem _
    have hh : q.handles[i]? = some (q.handles[i]) := List.getElem?_eq_getElem _
    rw [release, hb]
    simp only [hi, if_true]
    have hp' := List.pairwise_cons.1 hp
    obtain ⟨q', e1, e2, e3, e4, e5, e6⟩ := ih
      { q with
        idle := q.idle ++ [q.busy[i]'(hlen ▸ hi)]
        busy := q.busy.eraseIdx i
        handles := q.handles.eraseIdx i }
      (by simp only [← h, List.eraseIdx_map]) hp'.2
      (by
        intro j hj
        have := hp'.1 j hj
        have h2 : (q.handles.eraseIdx i).length = q.handles.length - 1 := by
          rw [List.length_eraseIdx, if_pos hi]
        simp only [h2]; omega)
    refine ⟨q', e1, e2, e3, ?_, e5, ?_⟩
    · rw [e4]
      simp only [List.filterMap_cons, hb, List.append_assoc, List.singleton_append]
      congr 2
      apply List.filterMap_congr
      intro j hj
      exact eraseIdx_getElem?_lt _ _ _ (hp'.1 j hj)
    · refine (eraseIdx_perm q.handles i _ hh).trans ?_
      simp only [List.filterMap_cons, hh, List.cons_append]
      refine List.Perm.cons _ ?_
      refine e6.trans ?_
      apply List.Perm.append_right
      apply List.Perm.of_eq
      apply List.filterMap_congr
      intro j hj
      exact eraseIdx_getElem?_lt _ _ _ (hp'.1 j hj)

/-- The result of collecting legal indices. -/
theorem collect_idx {n : Nat} (q : Queue α) (H : QInv n q) (indices : List Nat)
    (hnd : indices.Nodup) (hlt : ∀ i ∈ indices, i < q.handles.length) :
    ∃ q', release q (indices.insertionSort (· ≥ ·)) = (q', none) ∧ q'.idle.Nodup ∧ QInv n q' ∧
      q'.sent = q.sent ∧
      (∃ freed, q'.idle = q.idle ++ freed ∧
        freed.Perm ((indices.filterMap fun i => q.handles[i]?).map (·.1))) ∧
      q.handles.Perm ((indices.filterMap fun i => q.handles[i]?) ++ q'.handles) := by
  have hperm := List.perm_insertionSort (· ≥ ·) indices
  have hsorted : (indices.insertionSort (· ≥ ·)).Pairwise (· ≥ ·) := by
    have : IsTrans Nat (· ≥ ·) := ⟨fun _ _ _ h1 h2 => le_trans h2 h1⟩
    have : Std.Total (α := Nat) (· ≥ ·) := ⟨fun a b => le_total b a⟩
    exact List.pairwise_insertionSort (· ≥ ·) indices
  have hstrict : (indices.insertionSort (· ≥ ·)).Pairwise (· > ·) := by
    have := hsorted.and (hperm.nodup_iff.2 hnd)
    exact this.imp (fun h => by omega)
  obtain ⟨q', e1, e2, e3, e4, e5, e6⟩ := release_spec _ q H.align hstrict
    (fun i hi => hlt i (hperm.mem_iff.1 hi))
  have hp2 : q.handles.Perm ((indices.filterMap fun i => q.handles[i]?) ++ q'.handles) :=
    e6.trans ((hperm.filterMap _).append_right _)
  have hfreed : ((indices.insertionSort (· ≥ ·)).filterMap fun i => q.busy[i]?).Perm
      ((indices.filterMap fun i => q.handles[i]?).map (·.1)) := by
    refine (hperm.filterMap _).trans (List.Perm.of_eq ?_)
    rw [List.map_filterMap]
    apply List.filterMap_congr
    intro i _
    rw [← H.align, List.getElem?_map]
  have hw : (q'.idle ++ q'.busy).Perm (List.range' 1 n) := by
    refine List.Perm.trans ?_ H.workers
    rw [e4, ← e5, List.append_assoc]
    refine List.Perm.append_left _ ?_
    have := hp2.map (·.1)
    rw [List.map_append, H.align] at this
    exact ((hfreed.append_right _).trans this.symm)
  refine ⟨q', e1, ?_, ⟨e2.trans H.size, hw, e5⟩, e3, ⟨_, e4, hfreed⟩, hp2⟩
  exact (List.nodup_append.1 (hw.nodup_iff.2 List.nodup_range')).1

/-- What a collection does for a legal answer. -/
theorem collect_cases {n : Nat} (q : Queue α) (H : QInv n q) (b : Blocking)
    (answer : Option (List Nat)) (hL : Legal q b answer) :
    (q.handles = [] ∧ b = .all ∧ collect q b answer = (q, .ok [])) ∨
    (q.handles = [] ∧ b = .one ∧ collect q b answer = (q, .error .runtimeError)) ∨
    (q.handles = [] ∧ b = .no ∧ collect q b answer = (q, .error .typeError)) ∨
    (q.handles ≠ [] ∧ ∃ q' indices,
      collect q b answer = (q', .ok (indices.filterMap fun i => (q.handles[i]?).map (·.2))) ∧
      QInv n q' ∧ q'.sent = q.sent ∧ indices.Nodup ∧ (∀ i ∈ indices, i < q.handles.length) ∧
      (b ≠ .no → indices ≠ []) ∧ (b = .all → q'.handles = []) ∧
      (∃ freed, q'.idle = q.idle ++ freed ∧
        freed.Perm ((indices.filterMap fun i => q.handles[i]?).map (·.1))) ∧
      q.handles.Perm ((indices.filterMap fun i => q.handles[i]?) ++ q'.handles)) := by
  by_cases hh : q.handles = []
  · have h0 : q.handles.length = 0 := by simp [hh]
    cases b with
    | all => left; exact ⟨hh, rfl, by simp [collect, h0]⟩
    | one => right; left; exact ⟨hh, rfl, by simp [collect, h0]⟩
    | no => right; right; left; exact ⟨hh, rfl, by simp [collect, hL.1 hh]⟩
  · right; right; right
    refine ⟨hh, ?_⟩
    have h0 : q.handles.length ≠ 0 := by simpa using hh
    have key : ∃ indices, (if b = .all then some (List.range q.handles.length) else answer)
        = some indices ∧ indices.Nodup ∧ (∀ i ∈ indices, i < q.handles.length) ∧
        (b ≠ .no → indices ≠ []) ∧ (b = .all → indices = List.range q.handles.length) := by
      cases b with
      | all =>
        refine ⟨List.range q.handles.length, by simp, List.nodup_range, by simp, ?_, fun _ => rfl⟩
        intro _ h; exact h0 (by simpa using h)
      | one =>
        obtain ⟨l, h1, h2, h3, h4⟩ := hL hh
        exact ⟨l, by simp [h1], h3, h4, fun _ => h2, by simp⟩
      | no =>
        obtain ⟨l, h1, h3, h4⟩ := hL.2 hh
        exact ⟨l, by simp [h1], h3, h4, by simp, by simp⟩
    obtain ⟨indices, k1, k2, k3, k4, k5⟩ := key
    obtain ⟨q', e1, e2, e3, e4, e5, e6⟩ := collect_idx q H indices k2 k3
    refine ⟨q', indices, ?_, e3, e4, k2, k3, k4, ?_, e5, e6⟩
    · simp [collect, h0, k1, e1, e2]
    · intro hb
      have hl := e6.length_eq
      have : (indices.filterMap fun i => q.handles[i]?).length = q.handles.length := by
        rw [k5 hb]
        have : ((List.range q.handles.length).filterMap fun i => q.handles[i]?) = q.handles := by
          have hm : (List.range q.handles.length).filterMap (fun i => q.handles[i]?) =
              ((List.range q.handles.length).map fun i => q.handles[i]?).reduceOption := by
            rw [List.reduceOption, List.filterMap_map]; rfl
          rw [hm, show (List.range q.handles.length).map (fun i => q.handles[i]?) =
            q.handles.map some from ?_]
          · simp [List.reduceOption]
          · apply List.ext_getElem?
            intro i
            by_cases hi : i < q.handles.length
            · simp [hi]
            · simp [hi]
        rw [this]
      rw [List.length_append, this] at hl
      exact List.eq_nil_of_length_eq_zero (by omega)

theorem qinv_collect {n : Nat} (q : Queue α) (H : QInv n q) (b : Blocking)
    (answer : Option (List Nat)) (hL : Legal q b answer) : QInv n (collect q b answer).1 := by
  rcases collect_cases q H b answer hL with ⟨_, _, h⟩ | ⟨_, _, h⟩ | ⟨_, _, h⟩ |
    ⟨_, q', _, h, h', _⟩
  · rw [h]; exact H
  · rw [h]; exact H
  · rw [h]; exact H
  · rw [h]; exact h'

theorem closeout_cases {n : Nat} (q : Queue α) (H : QInv n q) :
    (q.busy = [] ∧ closeout q =
      ({ q with sent := q.sent ++ (List.range' 1 n).map fun c => (c, none) }, .ok ())) ∨
    (q.busy ≠ [] ∧ closeout q = (q, .error .runtimeError)) := by
  have hl := H.workers.length_eq
  rw [List.length_append, List.length_range'] at hl
  have hlen := H.lenh
  unfold closeout
  by_cases hb : q.busy = []
  · left
    have : q.busy.length = 0 := by simp [hb]
    rw [if_neg (by rw [H.size]; omega), if_neg (by omega), H.size]
    exact ⟨hb, rfl⟩
  · right
    have : q.busy.length ≠ 0 := by simpa using hb
    rw [if_pos (by rw [H.size]; omega)]
    exact ⟨hb, rfl⟩

theorem qinv_closeout {n : Nat} (q : Queue α) (H : QInv n q) : QInv n (closeout q).1 := by
  rcases closeout_cases q H with ⟨_, h⟩ | ⟨_, h⟩
  · rw [h]; exact ⟨H.size, H.workers, H.align⟩
  · rw [h]; exact H

theorem qinv_reach {n : Nat} {q : Queue α} {sub col} (h : Reach n q sub col) : QInv n q := by
  induction h with
  | init => exact qinv_init n
  | submit t c _ h ih => have := qinv_submit _ ih t; rw [h] at this; exact this
  | submitErr t e _ h ih => have := qinv_submit _ ih t; rw [h] at this; exact this
  | collect b a r _ hL h ih => have := qinv_collect _ ih b a hL; rw [h] at this; exact this
  | collectErr b a e _ hL h ih => have := qinv_collect _ ih b a hL; rw [h] at this; exact this
  | closeout r _ h ih => have := qinv_closeout _ ih; rw [h] at this; exact this

/-! ## C17 -/

/-- C17: after any history, idle and busy workers together are exactly ranks 1..n without
repetition, and the posted receives listen to the busy workers, in order. -/
theorem C17_workers (n : Nat) (q : Queue α) (sub : List (Nat × α)) (col : List (List Nat × List α))
    (h : Reach n q sub col) :
    (q.idle ++ q.busy).Perm (List.range' 1 n) ∧ (q.idle ++ q.busy).Nodup ∧
    q.handles.map (·.1) = q.busy :=
  ⟨(qinv_reach h).workers, (qinv_reach h).nodup, (qinv_reach h).align⟩

/-! ## C18 -/

/-- C18: after any history each accepted (worker, task) pair is outstanding or was returned by
exactly one collection.  `pairs` pairs up, for each collection, the results it returned (in
order) with workers that are the ones it freed. -/
theorem C18_tasks (n : Nat) (q : Queue α) (sub : List (Nat × α)) (col : List (List Nat × List α))
    (h : Reach n q sub col) :
    ∃ pairs : List (List (Nat × α)),
      List.Forall₂ (fun p c => (p.map (·.1)).Perm c.1 ∧ p.map (·.2) = c.2) pairs col ∧
      sub.Perm (pairs.flatten ++ q.handles) := by
  induction h with
  | init => exact ⟨[], List.Forall₂.nil, by simp [Queue.init]⟩
  | @submit q q' sub col t c hr h ih =>
    obtain ⟨pairs, h1, h2⟩ := ih
    rcases submit_cases q (qinv_reach hr) t with ⟨_, h'⟩ | ⟨c', rest, hi, h'⟩
    · rw [h'] at h; cases h
    · rw [h'] at h
      simp only [Prod.mk.injEq, Except.ok.injEq] at h
      obtain ⟨rfl, rfl⟩ := h
      refine ⟨pairs, h1, ?_⟩
      simp only [← List.append_assoc]
      exact h2.append_right _
  | @submitErr q q' sub col t e hr h ih =>
    rcases submit_cases q (qinv_reach hr) t with ⟨_, h'⟩ | ⟨c', rest, hi, h'⟩
    · rw [h'] at h
      simp only [Prod.mk.injEq] at h
      obtain ⟨rfl, _⟩ := h
      exact ih
    · rw [h'] at h; cases h
  | @collect q q' sub col b a r hr hL h ih =>
    obtain ⟨pairs, h1, h2⟩ := ih
    rcases collect_cases q (qinv_reach hr) b a hL with ⟨_, _, h'⟩ | ⟨_, _, h'⟩ | ⟨_, _, h'⟩ |
      ⟨_, q'', idx, h', _, _, _, _, _, _, ⟨freed, hf, hfp⟩, hp⟩
    · rw [h'] at h
      simp only [Prod.mk.injEq, Except.ok.injEq] at h
      obtain ⟨rfl, rfl⟩ := h
      refine ⟨pairs ++ [[]], ?_, by simpa using h2⟩
      exact List.rel_append h1 (List.Forall₂.cons (by simp) List.Forall₂.nil)
    · rw [h'] at h; cases h
    · rw [h'] at h; cases h
    · rw [h'] at h
      simp only [Prod.mk.injEq, Except.ok.injEq] at h
      obtain ⟨rfl, rfl⟩ := h
      refine ⟨pairs ++ [idx.filterMap fun i => q.handles[i]?], ?_, ?_⟩
      · refine List.rel_append h1 (List.Forall₂.cons ⟨?_, ?_⟩ List.Forall₂.nil)
        · simp only [hf, List.drop_left]
          exact hfp.symm
        · rw [List.map_filterMap]
      · rw [List.flatten_append]
        simp only [List.flatten_cons, List.flatten_nil, List.append_nil, List.append_assoc]
        exact h2.trans (hp.append_left _)
  | @collectErr q q' sub col b a e hr hL h ih =>
    rcases collect_cases q (qinv_reach hr) b a hL with ⟨_, _, h'⟩ | ⟨_, _, h'⟩ | ⟨_, _, h'⟩ |
      ⟨_, q'', idx, h', _⟩
    · rw [h'] at h; cases h
    · rw [h'] at h
      simp only [Prod.mk.injEq] at h
      obtain ⟨rfl, _⟩ := h
      exact ih
    · rw [h'] at h
      simp only [Prod.mk.injEq] at h
      obtain ⟨rfl, _⟩ := h
      exact ih
    · rw [h'] at h; cases h
  | @closeout q q' sub col r hr h ih =>
    rcases closeout_cases q (qinv_reach hr) with ⟨_, h'⟩ | ⟨_, h'⟩
    · rw [h'] at h
      simp only [Prod.mk.injEq] at h
      obtain ⟨rfl, _⟩ := h
      exact ih
    · rw [h'] at h
      simp only [Prod.mk.injEq] at h
      obtain ⟨rfl, _⟩ := h
      exact ih

/-! ## C19 -/

/-- C19, submission: in a reachable state it fails exactly when no worker is idle, changing
nothing; otherwise the first idle worker gets the message and becomes the last busy one. -/
theorem C19_submit (n : Nat) (q : Queue α) (sub : List (Nat × α)) (col : List (List Nat × List α))
    (h : Reach n q sub col) (t : α) :
    (q.idle = [] → submit q t = (q, .error .runtimeError)) ∧
    (q.idle ≠ [] → ∃ c rest q', q.idle = c :: rest ∧ submit q t = (q', .ok c) ∧
      q'.idle = rest ∧ q'.busy = q.busy ++ [c] ∧ q'.sent = q.sent ++ [(c, some t)]) := by
  rcases submit_cases q (qinv_reach h) t with ⟨h1, h2⟩ | ⟨c, rest, hi, h2⟩
  · exact ⟨fun _ => h2, fun h => absurd h1 h⟩
  · exact ⟨fun h => absurd (hi.symm.trans h) (by simp), fun _ => ⟨c, rest, _, hi, h2, rfl, rfl, rfl⟩⟩

/-- C19, collection: blocking collection fails exactly when nothing is outstanding, except in
collect-all mode where it returns nothing; non-blocking collection with nothing outstanding
also fails (mpi4py answers `None`).  Failures change nothing.  Otherwise it succeeds; when
blocking at least one result is returned, and in collect-all mode every worker ends idle. -/
theorem C19_collect (n : Nat) (q : Queue α) (sub : List (Nat × α)) (col : List (List Nat × List α))
    (h : Reach n q sub col) (b : Blocking) (answer : Option (List Nat))
    (hL : Legal q b answer) :
    (q.busy = [] → collect q b answer = (q, match b with
      | .all => .ok []
      | .one => .error .runtimeError
      | .no => .error .typeError)) ∧
    (q.busy ≠ [] → ∃ q' res, collect q b answer = (q', .ok res) ∧
      q'.busy.length + res.length = q.busy.length ∧
      (b ≠ .no → res ≠ []) ∧ (b = .all → q'.busy = [] ∧ q'.idle.length = n)) := by
  have H := qinv_reach h
  have hbh : q.busy = [] ↔ q.handles = [] := by rw [← H.align]; simp
  rcases collect_cases q H b answer hL with ⟨hh, rfl, h'⟩ | ⟨hh, rfl, h'⟩ |
    ⟨hh, rfl, h'⟩ | ⟨hh, q', idx, h', H', _, hnd, hlt, hne, hall, _, hp⟩
  · exact ⟨fun _ => h', fun hb => absurd (hbh.2 hh) hb⟩
  · exact ⟨fun _ => h', fun hb => absurd (hbh.2 hh) hb⟩
  · exact ⟨fun _ => h', fun hb => absurd (hbh.2 hh) hb⟩
  · refine ⟨fun hb => absurd (hbh.1 hb) hh, fun _ => ⟨q', _, h', ?_, ?_, ?_⟩⟩
    · have e1 := hp.length_eq
      have e2 := H.lenh
      have e3 := H'.lenh
      have e4 : (idx.filterMap fun i => (q.handles[i]?).map (·.2)).length =
          (idx.filterMap fun i => q.handles[i]?).length := by
        rw [← List.map_filterMap, List.length_map]
      rw [List.length_append] at e1
      omega
    · intro hb
      have hi := hne hb
      cases idx with
      | nil => exact absurd rfl hi
      | cons i t =>
        have : q.handles[i]? = some (q.handles[i]'(hlt i (by simp))) := List.getElem?_eq_getElem _
        simp [this]
    · intro hb
      have e1 := hall hb
      have e2 : q'.busy = [] := by rw [← H'.align, e1]; rfl
      have e3 := H'.workers.length_eq
      rw [e2] at e3
      exact ⟨e2, by simpa using e3⟩

/-- C19, closing: fails exactly when some worker is busy, changing nothing; otherwise one stop
message goes to each of ranks 1..n and nothing else changes. -/
theorem C19_closeout (n : Nat) (q : Queue α) (sub : List (Nat × α)) (col : List (List Nat × List α))
    (h : Reach n q sub col) :
    (q.busy ≠ [] → closeout q = (q, .error .runtimeError)) ∧
    (q.busy = [] → ∃ q', closeout q = (q', .ok ()) ∧ q'.idle = q.idle ∧ q'.busy = q.busy ∧
      q'.sent = q.sent ++ (List.range' 1 n).map fun c => (c, none)) := by
  rcases closeout_cases q (qinv_reach h) with ⟨h1, h2⟩ | ⟨h1, h2⟩
  · exact ⟨fun h => absurd h1 h, fun _ => ⟨_, h2, rfl, rfl, rfl⟩⟩
  · exact ⟨fun _ => h2, fun h => absurd h h1⟩

/-- A history meeting the hypotheses of C17–C19: three workers, two submissions, the second
result collected first. -/
example : ∃ (q : Queue String) (sub : List (Nat × String)) (col : List (List Nat × List String)),
    Reach 3 q sub col ∧ q.busy = [1] ∧ q.idle = [3, 2] ∧ sub = [(1, "a"), (2, "b")] ∧
    col = [([2], ["b"])] := by
  refine ⟨_, _, _, Reach.collect .one (some [1]) ["b"]
    (Reach.submit "b" 2 (Reach.submit "a" 1 Reach.init rfl) rfl) ?_ rfl, rfl, rfl, rfl, rfl⟩
  intro _
  exact ⟨[1], rfl, by simp, by simp, by simp [Queue.init]⟩

end Forcepho.Dispatcher
