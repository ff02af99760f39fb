import Verif.SuperScene.Model
import Mathlib.Data.List.Sort

/-!
# Model of `forcepho/dispatcher.py`

`MPIQueue` (lines 29-153) and the parent loop `do_parent` (lines 156-246).

Messages are abstract: a posted receive (`irecv`) is a pair of the worker it listens to and the
task that worker was sent, and completing it yields the answer to that task.  The set of receives
found complete by `testsome` / `waitsome` is an input (the schedule).
Not modelled: buffer sizes, MPI failures, timers, logging, the JSON patch log on disk.
-/

set_option autoImplicit false

namespace Forcepho.Dispatcher

open Forcepho.SuperScene

variable {α : Type}

/-- `MPIQueue` (dispatcher.py:54-65).  `handles` is `irecv_handles`; `sent` records the messages
given to `comm.send`, in order, as (destination, payload). -/
structure Queue (α : Type) where
  n : Nat
  idle : List Nat
  busy : List Nat
  handles : List (Nat × α)
  sent : List (Nat × Option α)

/-- `MPIQueue.__init__` (dispatcher.py:54-65). -/
def Queue.init (n : Nat) : Queue α where
  n := n
  idle := List.range' 1 n
  busy := []
  handles := []
  sent := []

/-- Exceptions raised by the queue. -/
inductive QErr
  | runtimeError
  | valueError
  | typeError
  | indexError
  | assertionError
  deriving DecidableEq, Repr

/-- `MPIQueue.submit` (dispatcher.py:113-140). -/
def submit (q : Queue α) (t : α) : Queue α × Except QErr Nat :=
  match q.idle with
  | [] => (q, .error .runtimeError)
  | c :: idle =>
    let q1 := { q with idle := idle }
    if c ∈ q1.busy then (q1, .error .valueError)
    else
      ({ q1 with
          sent := q1.sent ++ [(c, some t)]
          handles := q1.handles ++ [(c, t)]
          busy := q1.busy ++ [c] }, .ok c)

/-- The `blocking` argument of `collect`. -/
inductive Blocking
  | no
  | one
  | all
  deriving DecidableEq, Repr

/-- The loop over completed receives (dispatcher.py:98-105), given the indices in the order they
are visited. -/
def release (q : Queue α) : List Nat → Queue α × Option QErr
  | [] => (q, none)
  | i :: is =>
    match q.busy[i]? with
    | none => (q, some .indexError)
    | some c =>
      let q1 := { q with idle := q.idle ++ [c], busy := q.busy.eraseIdx i }
      if i < q1.handles.length then release { q1 with handles := q1.handles.eraseIdx i } is
      else (q1, some .indexError)

/-- `MPIQueue.collect` (dispatcher.py:67-111).  `answer` is the list of completed indices
returned by `waitsome` or `testsome`; `none` is mpi4py's `None`, returned when no receive is
posted, over which `sorted` raises `TypeError`. -/
def collect (q : Queue α) (b : Blocking) (answer : Option (List Nat)) :
    Queue α × Except QErr (List α) :=
  if b = .all ∧ q.handles.length = 0 then (q, .ok [])
  else if b ≠ .no ∧ q.handles.length = 0 then (q, .error .runtimeError)
  else
    match (if b = .all then some (List.range q.handles.length) else answer) with
    | none => (q, .error .typeError)
    | some indices =>
      let results := indices.filterMap fun i => (q.handles[i]?).map (·.2)
      match release q (indices.insertionSort (· ≥ ·)) with
      | (q', some e) => (q', .error e)
      | (q', none) =>
        if q'.idle.Nodup then (q', .ok results) else (q', .error .assertionError)

/-- What MPI may answer: distinct indices of posted receives, at least one when waiting; `None`
exactly when testing with nothing posted. -/
def Legal (q : Queue α) (b : Blocking) (answer : Option (List Nat)) : Prop :=
  match b with
  | .all => True
  | .one => q.handles ≠ [] →
      ∃ l, answer = some l ∧ l ≠ [] ∧ l.Nodup ∧ ∀ i ∈ l, i < q.handles.length
  | .no =>
      (q.handles = [] → answer = none) ∧
      (q.handles ≠ [] → ∃ l, answer = some l ∧ l.Nodup ∧ ∀ i ∈ l, i < q.handles.length)

/-- `MPIQueue.closeout` (dispatcher.py:142-153). -/
def closeout (q : Queue α) : Queue α × Except QErr Unit :=
  if q.idle.length ≠ q.n then (q, .error .runtimeError)
  else if q.handles.length ≠ 0 then (q, .error .runtimeError)
  else ({ q with sent := q.sent ++ (List.range' 1 q.n).map fun c => (c, none) }, .ok ())

/-- Histories of queue operations with legal answers.  `sub` lists the (worker, task) pairs that
`submit` accepted; `col` lists, per successful `collect`, the workers it added to the idle list
and the results it returned. -/
inductive Reach (n : Nat) : Queue α → List (Nat × α) → List (List Nat × List α) → Prop
  | init : Reach n (Queue.init n) [] []
  | submit {q q' : Queue α} {sub col} (t : α) (c : Nat) : Reach n q sub col →
      submit q t = (q', .ok c) → Reach n q' (sub ++ [(c, t)]) col
  | submitErr {q q' : Queue α} {sub col} (t : α) (e : QErr) : Reach n q sub col →
      submit q t = (q', .error e) → Reach n q' sub col
  | collect {q q' : Queue α} {sub col} (b : Blocking) (answer : Option (List Nat))
      (res : List α) : Reach n q sub col → Legal q b answer →
      collect q b answer = (q', .ok res) →
      Reach n q' sub (col ++ [(q'.idle.drop q.idle.length, res)])
  | collectErr {q q' : Queue α} {sub col} (b : Blocking) (answer : Option (List Nat))
      (e : QErr) : Reach n q sub col → Legal q b answer →
      collect q b answer = (q', .error e) → Reach n q' sub col
  | closeout {q q' : Queue α} {sub col} (r : Except QErr Unit) : Reach n q sub col →
      closeout q = (q', r) → Reach n q' sub col

/-! ## The parent loop -/

variable {K B C : Type}

/-- State of `do_parent` (dispatcher.py:156-246): the super-scene, the queue (whose tasks are
the task id with the region's rows), the task counter, the `patchcat` dictionary.  `trace` is
ghost state: for each result checked in, the id of its task and the id it was logged under. -/
structure Parent (K B C : Type) where
  sup : State K B C
  q : Queue (Nat × Held K)
  taskid : Nat
  patchcat : List (Nat × List Nat)
  trace : List (Nat × Nat)

/-- Exceptions that end the parent. -/
inductive PErr
  | scene (e : Err)
  | queue (e : QErr)
  deriving DecidableEq

/-- What the outside supplies during one pass: the seeds drawn by successive checkouts, the
receives found complete, and for each result the parameters and covariances sent back. -/
structure Input (K C : Type) where
  seeds : List Nat
  answer : Option (List Nat)
  replies : List (List (Params K) × Option (List C))

section
variable [CommRing K] [LinearOrder K]

/-- The `for _ in range(ntry)` loop (dispatcher.py:193-199); one seed per try. -/
def tryCheckout (E : Env K) (cfg : Config K) (s : State K B C) :
    List Nat → State K B C × Except Err (Option (Held K))
  | [] => (s, .ok none)
  | k :: ks =>
    match checkout E cfg s k with
    | (s', .raised e) => (s', .error e)
    | (s', .invalid) => tryCheckout E cfg s' ks
    | (s', .region _ _ act fix) => (s', .ok (some ⟨act, fix⟩))

/-- `SuperScene.sparse` (superscene.py:98-101) with `maxactive_fraction = 0.5`
(dispatcher.py:181): active sources number less than half of all. -/
def sparse (s : State K B C) : Bool := decide (2 * s.nActive < s.rows.length)

/-- The first half of a pass (dispatcher.py:191-217): try to check out, and submit.  The boolean
says whether a region was checked out. -/
def propose (E : Env K) (cfg : Config K) (p : Parent K B C) (inp : Input K C) :
    Parent K B C × Except PErr Bool :=
  match tryCheckout E cfg p.sup inp.seeds with
  | (s1, .error e) => ({ p with sup := s1 }, .error (.scene e))
  | (s1, .ok none) => ({ p with sup := s1 }, .ok false)
  | (s1, .ok (some h)) =>
    let tid := p.taskid + 1
    let p1 : Parent K B C := { p with
      sup := s1
      taskid := tid
      patchcat := p.patchcat ++ [(tid, h.active.map (·.sourceIndex))] }
    match submit p.q (tid, h) with
    | (q', .error e) => ({ p1 with q := q' }, .error (.queue e))
    | (q', .ok _) => ({ p1 with q := q' }, .ok true)

/-- dispatcher.py:222. -/
def blockingOf (p : Parent K B C) (got : Bool) : Blocking :=
  if p.q.idle = [] ∨ sparse p.sup = false ∨ got = false then .one else .no

omit [CommRing K] [LinearOrder K] in
/-- The check-in loop (dispatcher.py:226-230): every result is checked in with the sampling
draws of the configuration and the *current* task id. -/
def checkinAll (draws : Int) (tid : Nat) :
    State K B C → List ((Nat × Held K) × (List (Params K) × Option (List C))) →
    State K B C × Option Err
  | s, [] => (s, none)
  | s, (r, rep) :: rs =>
    match checkin s (heldArgs r.2 rep.1 draws rep.2 none (some (toString tid))) with
    | (s', some e) => (s', some e)
    | (s', none) => checkinAll draws tid s' rs

/-- The second half of a pass (dispatcher.py:219-230): collect, and check every result in. -/
def absorb (draws : Int) (p1 : Parent K B C) (got : Bool) (inp : Input K C) :
    Parent K B C × Option PErr :=
  match collect p1.q (blockingOf p1 got) inp.answer with
  | (q', .error e) => ({ p1 with q := q' }, some (.queue e))
  | (q', .ok results) =>
    match checkinAll draws p1.taskid p1.sup (results.zip inp.replies) with
    | (s', some e) => ({ p1 with q := q', sup := s' }, some (.scene e))
    | (s', none) =>
      ({ p1 with
          q := q'
          sup := s'
          trace := p1.trace ++ results.map fun r => (r.1, p1.taskid) }, none)

/-- One pass of the event loop (dispatcher.py:190-230). -/
def pass (E : Env K) (cfg : Config K) (draws : Int) (p : Parent K B C) (inp : Input K C) :
    Parent K B C × Option PErr :=
  match propose E cfg p inp with
  | (p1, .error e) => (p1, some e)
  | (p1, .ok got) => absorb draws p1 got inp

/-- What the outside may supply: at least one try, a legal MPI answer, and one reply per result
with one parameter set per active source of its region. -/
def LegalIn (E : Env K) (cfg : Config K) (p : Parent K B C) (inp : Input K C) : Prop :=
  inp.seeds ≠ [] ∧
  ∀ p1 got, propose E cfg p inp = (p1, .ok got) →
    Legal p1.q (blockingOf p1 got) inp.answer ∧
    ∀ q' results, collect p1.q (blockingOf p1 got) inp.answer = (q', .ok results) →
      List.Forall₂ (fun r rep => rep.1.length = r.2.active.length) results inp.replies

/-- Passes made while the scene is undone (dispatcher.py:190), without an exception. -/
inductive Loop (E : Env K) (cfg : Config K) (draws : Int) : Parent K B C → Parent K B C → Prop
  | refl (p : Parent K B C) : Loop E cfg draws p p
  | pass {p p1 p2 : Parent K B C} (inp : Input K C) : Loop E cfg draws p p1 →
      undone cfg p1.sup = true → LegalIn E cfg p1 inp →
      pass E cfg draws p1 inp = (p2, none) → Loop E cfg draws p p2

omit [CommRing K] [LinearOrder K] in
/-- After the loop (dispatcher.py:232-246): wait for stragglers, whose results are dropped, and
close the queue. -/
def finish (p : Parent K B C) : Parent K B C × Except PErr (List (Nat × Held K)) :=
  match collect p.q .all none with
  | (q', .error e) => ({ p with q := q' }, .error (.queue e))
  | (q', .ok results) =>
    match closeout q' with
    | (q'', .error e) => ({ p with q := q'' }, .error (.queue e))
    | (q'', .ok _) => ({ p with q := q'' }, .ok results)

omit [CommRing K] [LinearOrder K] in
/-- The parent before the loop, with `n` workers. -/
def start (sup : State K B C) (n : Nat) : Parent K B C where
  sup := sup
  q := Queue.init n
  taskid := 0
  patchcat := []
  trace := []

end

end Forcepho.Dispatcher
