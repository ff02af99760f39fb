import Mathlib.Tactic.Lemma
import Mathlib.Data.List.SplitOn

/-! # Property C144: the log of a run

`Logger` (utils/__init__.py:15-31) collects messages, and `serialize` joins them by line breaks.  Strings are
lists of characters. -/

set_option autoImplicit false

namespace Forcepho.Config

/-- A logger: its name, and the messages with their time tags in order (utils/__init__.py:19-21). -/
structure Logger where
  name : List Char
  comments : List (List Char × List Char)

/-- `Logger.__init__` (utils/__init__.py:19-21). -/
def newLogger (name : List Char) : Logger := { name := name, comments := [] }

/-- `Logger.info` (utils/__init__.py:23-27); `now` is the formatted local time. -/
def Logger.info (g : Logger) (now : List Char) (message : List Char) (timetag : Option (List Char)) : Logger :=
  { g with
    comments := g.comments ++ [(message, match timetag with
      | none => now
      | some t => t)] }

/-- `Logger.serialize` (utils/__init__.py:29-31). -/
def Logger.serialize (g : Logger) : List Char := ['\n'].intercalate (g.comments.map (·.1))

/-- Several messages, each with the time at which it was logged. -/
def logAll (g : Logger) (msgs : List (List Char × List Char × Option (List Char))) : Logger :=
  msgs.foldl (fun g m => g.info m.1 m.2.1 m.2.2) g

lemma logAll_comments (msgs : List (List Char × List Char × Option (List Char))) :
    ∀ g : Logger, (logAll g msgs).name = g.name ∧ (logAll g msgs).comments =
      g.comments ++ msgs.map fun m => (m.2.1, m.2.2.getD m.1) := by
  induction msgs with
  | nil => intro g; simp [logAll]
  | cons m l ih =>
    intro g
    have h := ih (g.info m.1 m.2.1 m.2.2)
    simp only [logAll, List.foldl_cons] at h ⊢
    refine ⟨h.1, ?_⟩
    rw [h.2]
    obtain ⟨now, msg, tag⟩ := m
    cases tag <;> simp [Logger.info]

/-- **C144**, collecting: after any sequence of messages the logger has its name, and exactly these messages
in order, each with the given time tag, or with the time of logging if none was given. -/
theorem C144_collect (name : List Char) (msgs : List (List Char × List Char × Option (List Char))) :
    (logAll (newLogger name) msgs).name = name ∧
    (logAll (newLogger name) msgs).comments = msgs.map fun m => (m.2.1, m.2.2.getD m.1) := by
  have h := logAll_comments msgs (newLogger name)
  simpa [newLogger] using h

/-- **C144**, reading (partial: for messages without line breaks, see `C144_refuted`): cutting the text of a
non-empty log at the line breaks gives the messages in order. -/
theorem C144_lines_partial (name : List Char) (msgs : List (List Char × List Char × Option (List Char)))
    (hne : msgs ≠ []) (hnl : ∀ m ∈ msgs, '\n' ∉ m.2.1) :
    (logAll (newLogger name) msgs).serialize.splitOn '\n' = msgs.map fun m => m.2.1 := by
  rw [Logger.serialize, (C144_collect name msgs).2, List.map_map]
  rw [List.splitOn_intercalate]
  · rfl
  · intro l hl
    obtain ⟨m, hm, rfl⟩ := List.mem_map.1 hl
    exact hnl m hm
  · simpa using hne

/-- The text does not determine the messages: one message of two lines looks like two messages, and a log with
one empty message like an empty log. -/
theorem C144_refuted (name now : List Char) :
    (logAll (newLogger name) [(now, "a\nb".toList, none)]).serialize =
      (logAll (newLogger name) [(now, "a".toList, none), (now, "b".toList, none)]).serialize ∧
    (logAll (newLogger name) [(now, [], none)]).serialize = (newLogger name).serialize := by
  refine ⟨?_, ?_⟩ <;> rfl

/-- Two messages, one with a time tag. -/
theorem C144_witness :
    (logAll (newLogger "fit".toList)
      [("t1".toList, "start".toList, none), ("t2".toList, "stop".toList, some "now".toList)]).serialize =
        "start\nstop".toList ∧
    (logAll (newLogger "fit".toList)
      [("t1".toList, "start".toList, none), ("t2".toList, "stop".toList, some "now".toList)]).comments =
        [("start".toList, "t1".toList), ("stop".toList, "now".toList)] := by decide

end Forcepho.Config
