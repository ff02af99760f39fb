import Mathlib.Data.List.Basic
import Mathlib.Data.List.TakeWhile

/-!
# C102: the event loop of a child process

Models `do_child` and `dummy_work` (`forcepho/dispatcher.py:249-317`).  The messages the parent will
send are a list; the loop consumes them one by one.  MPI delivers messages from one sender in order
(an assumption of the model).  `work` and `fill` are parameters.  Not modelled: construction of the
patcher, logging, the one second of sleep.
-/

set_option autoImplicit false

namespace Forcepho.Dispatcher.Child

variable {Region Cat Bounds Fit Model Final Covs Out : Type}

/-! ## Model -/

/-- The dictionary of a task: `task["region"]`, … (`dispatcher.py:282`). -/
structure Task (Region Cat Bounds : Type) where
  region : Region
  active : Cat
  fixed : Cat
  bounds : Bounds

/-- The tuple `scene` handed to `work` (`dispatcher.py:282`). -/
abbrev Scene (Region Cat Bounds : Type) := Region × Cat × Cat × Bounds

/-- The exceptions that matter here. -/
inductive Err where
  | typeError
  | other (code : Nat)
deriving DecidableEq

/-- `answer = dict(out=out, covs=covs, final=final)` (`dispatcher.py:294`). -/
structure Answer (Out Covs Final : Type) where
  out : Out
  covs : Covs
  final : Final
deriving DecidableEq

/-- What `work` returns: `fit, scene, model` with `out, step, stats = fit`
(`dispatcher.py:283`, `:287`); `step` and `stats` are one value. -/
structure Worked (Region Cat Bounds Out Fit Model : Type) where
  out : Out
  fit : Fit
  scene : Scene Region Cat Bounds
  model : Model

/-- The calls made for one task, which may raise. -/
structure Calls (Region Cat Bounds Out Fit Model Final Covs : Type) where
  /-- `work(patcher, scene, config, logger)` -/
  work : Scene Region Cat Bounds → Except Err (Worked Region Cat Bounds Out Fit Model)
  /-- `out.fill(region, active, fixed, model, bounds=bounds, ...)` -/
  fill : Out → Region → Cat → Cat → Model → Bounds → Fit → Except Err (Final × Covs)

/-- The work for one task up to the answer (`dispatcher.py:282-294`). -/
def handle (w : Calls Region Cat Bounds Out Fit Model Final Covs) (t : Task Region Cat Bounds) :
    Except Err (Answer Out Covs Final) :=
  match w.work (t.region, t.active, t.fixed, t.bounds) with
  | .error e => .error e
  | .ok r =>
    match w.fill r.out r.scene.1 r.scene.2.1 r.scene.2.2.1 r.model r.scene.2.2.2 r.fit with
    | .error e => .error e
    | .ok (final, covs) => .ok ⟨r.out, covs, final⟩

/-- How the loop ended. -/
inductive End where
  /-- a shutdown message arrived -/
  | shutdown
  /-- blocked in `comm.recv`, no message left -/
  | waiting
  /-- an exception left the loop -/
  | raised (e : Err)
deriving DecidableEq

/-- What the child did: the messages sent to the parent with their tags, the number of calls of
`patcher.free()`, the messages not received, and how it ended. -/
structure Trace (Region Cat Bounds Out Covs Final : Type) where
  sent : List (Answer Out Covs Final × Nat)
  freed : Nat
  unread : List (Option (Task Region Cat Bounds) × Nat)
  ended : End

/-- The event loop (`dispatcher.py:271-298`): a message is a task or `None`, with a tag. -/
def loop (w : Calls Region Cat Bounds Out Fit Model Final Covs) :
    List (Option (Task Region Cat Bounds) × Nat) → Trace Region Cat Bounds Out Covs Final
  | [] => ⟨[], 0, [], .waiting⟩
  | (none, _) :: rest => ⟨[], 0, rest, .shutdown⟩
  | (some t, tag) :: rest =>
    match handle w t with
    | .error e => ⟨[], 0, rest, .raised e⟩
    | .ok a =>
      let tr := loop w rest
      ⟨(a, tag) :: tr.sent, tr.freed + 1, tr.unread, tr.ended⟩

/-- The shipped `dummy_work` (`dispatcher.py:303-317`): `task` is the tuple `scene`, and
`task["active"]` indexes a tuple with a string. -/
def dummyWork (_ : Scene Region Cat Bounds) :
    Except Err (Worked Region Cat Bounds Out Fit Model) := .error .typeError

/-! ## Specification -/

/-- The messages before the first shutdown message. -/
def before (ms : List (Option (Task Region Cat Bounds) × Nat)) : List (Task Region Cat Bounds × Nat) :=
  (ms.takeWhile fun m => m.1.isSome).filterMap fun m => m.1.map fun t => (t, m.2)

/-! ## Theorems -/

/-- **C102, every task is answered once, in order, under its own tag.**  For a `work` and `fill` that
succeed on the tasks sent, the answers are exactly those for the tasks before the first shutdown
message, in order and with their tags; the memory of every task is freed; the loop ends with the
shutdown if one was sent and otherwise waits; nothing after the shutdown message is received. -/
theorem C102_answers_partial (w : Calls Region Cat Bounds Out Fit Model Final Covs)
    (ms : List (Option (Task Region Cat Bounds) × Nat)) (ans : Task Region Cat Bounds → Answer Out Covs Final)
    (hw : ∀ t tag, (some t, tag) ∈ ms → handle w t = .ok (ans t)) :
    (loop w ms).sent = (before ms).map (fun e => (ans e.1, e.2)) ∧
    (loop w ms).freed = (before ms).length ∧
    ((loop w ms).ended = .shutdown ↔ ∃ tag, (none, tag) ∈ ms) ∧
    ((loop w ms).ended = .waiting ↔ ∀ tag, (none, tag) ∉ ms) ∧
    (loop w ms).unread = (ms.dropWhile fun m => m.1.isSome).drop 1 := by
  induction ms with
  | nil => simp [loop, before]
  | cons m ms ih =>
    obtain ⟨t, tag⟩ := m
    cases t with
    | none =>
      simp [loop, before]
      exact ⟨tag, fun h => absurd rfl h⟩
    | some t =>
      have h := hw t tag List.mem_cons_self
      obtain ⟨h1, h2, h3, h4, h5⟩ := ih fun t tag hm => hw t tag (List.mem_cons_of_mem _ hm)
      simp only [loop, h]
      refine ⟨?_, ?_, ?_, ?_, ?_⟩
      · rw [h1]; simp [before]
      · rw [h2]; simp [before]
      · rw [h3]; simp
      · rw [h4]; simp
      · rw [h5]; simp

/-- C102, the answer: the parent receives the output of `work` and what `fill` makes of the region,
sources, bounds and model that `work` returned. -/
theorem C102_answer (w : Calls Region Cat Bounds Out Fit Model Final Covs) (t : Task Region Cat Bounds)
    (a : Answer Out Covs Final) :
    handle w t = .ok a ↔ ∃ r, w.work (t.region, t.active, t.fixed, t.bounds) = .ok r ∧
      w.fill r.out r.scene.1 r.scene.2.1 r.scene.2.2.1 r.model r.scene.2.2.2 r.fit
        = .ok (a.final, a.covs) ∧ a.out = r.out := by
  unfold handle
  cases h : w.work (t.region, t.active, t.fixed, t.bounds) with
  | error e => simp
  | ok r =>
    simp only [Except.ok.injEq, exists_eq_left']
    cases h2 : w.fill r.out r.scene.1 r.scene.2.1 r.scene.2.2.1 r.model r.scene.2.2.2 r.fit with
    | error e => simp
    | ok p =>
      obtain ⟨f, c⟩ := p
      obtain ⟨o, c', f'⟩ := a
      simp only [Except.ok.injEq, Answer.mk.injEq, Prod.mk.injEq]
      constructor
      · rintro ⟨rfl, rfl, rfl⟩; exact ⟨⟨rfl, rfl⟩, rfl⟩
      · rintro ⟨⟨rfl, rfl⟩, rfl⟩; exact ⟨rfl, rfl, rfl⟩

/-- C102, an exception in one task ends the child: the tasks before it are answered, that task and
the ones behind it never are. -/
theorem C102_exception (w : Calls Region Cat Bounds Out Fit Model Final Covs)
    (good : List (Task Region Cat Bounds × Nat)) (ans : Task Region Cat Bounds → Answer Out Covs Final)
    (hw : ∀ e ∈ good, handle w e.1 = .ok (ans e.1)) (t : Task Region Cat Bounds) (tag : Nat) (e : Err)
    (he : handle w t = .error e) (rest : List (Option (Task Region Cat Bounds) × Nat)) :
    loop w (good.map (fun e => (some e.1, e.2)) ++ (some t, tag) :: rest)
      = ⟨good.map fun e => (ans e.1, e.2), good.length, rest, .raised e⟩ := by
  induction good with
  | nil => simp [loop, he]
  | cons g good ih =>
    have h := hw g List.mem_cons_self
    rw [List.map_cons, List.cons_append]
    simp only [loop, h]
    rw [ih fun x hx => hw x (List.mem_cons_of_mem _ hx)]
    simp

/-- **C102 fails for the shipped work function.**  With `dummy_work` the first task raises
`TypeError`: no answer is ever sent, and the later messages, including the shutdown, are not
received. -/
theorem C102_dummy_refuted
    (fill : Out → Region → Cat → Cat → Model → Bounds → Fit → Except Err (Final × Covs))
    (t : Task Region Cat Bounds) (tag : Nat) (rest : List (Option (Task Region Cat Bounds) × Nat)) :
    loop ⟨dummyWork, fill⟩ ((some t, tag) :: rest) = ⟨[], 0, rest, .raised .typeError⟩ := rfl

/-! ## Concrete case -/

/-- Two tasks and a shutdown; the message behind the shutdown stays unread. -/
example :
    let w : Calls Nat Nat Nat Nat Unit Unit Nat Nat :=
      ⟨fun s => .ok ⟨s.1, (), s, ()⟩, fun _ r a f _ b _ => .ok (r + a, f + b)⟩
    let tr := loop w [(some ⟨1, 2, 3, 4⟩, 7), (some ⟨5, 6, 7, 8⟩, 9), (none, 0), (some ⟨1, 1, 1, 1⟩, 1)]
    tr.sent = [(⟨1, 7, 3⟩, 7), (⟨5, 15, 11⟩, 9)] ∧ tr.freed = 2 ∧ tr.unread.length = 1 ∧
      tr.ended = .shutdown := by decide

end Forcepho.Dispatcher.Child
