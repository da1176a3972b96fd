import Verif.Model.Loop
/-!
# Event sources on the loop

Models `EventSourceScheduler.schedule` (`event_source.py:193-230`).  A source is seen through the
sequence of events that its `get_next_event`/`peek_next_event` deliver (`event_source.py:96-114`):
`ev i n` is the `n`-th event of source `i` as (time in ms, priority), `none` when the source is
exhausted.  How an `EventSource` computes that sequence is modelled in `Verif/Model/EventSource.lean`.
-/
namespace Jq

/-- The sources: their event sequences, and whether the handlers called by `event_bus.emit`
(line 215) raise for the event. -/
structure Sources (ε : Type) where
  ev : Nat → Nat → Option (Int × Int)
  fails : Nat → Nat → Option ε

/-- World of the scheduler callbacks: how many events each source has delivered. -/
abbrev Delivered := Nat → Nat

/-- `event_source.py:218-226` `push_next_msg` of source `i`: the next event, if any, is peeked (not
consumed) and a message with its time and priority is pushed. -/
def pushNext {ε} (S : Sources ε) (i : Nat) (w : Delivered) : List (Act Nat) :=
  match S.ev i (w i) with
  | none => []
  | some (t, p) => [.push t p i]

/-- `event_source.py:206-216` `callback` of source `i`: take the next event, emit it (line 215, may
raise: then line 216 is not reached), push the next message. -/
def sourceExec {ε} (S : Sources ε) (i : Nat) (w : Delivered) :
    Delivered × List (Act Nat) × Option ε :=
  match S.ev i (w i) with
  | none => (w, [], none)
  | some _ =>
    let w' : Delivered := fun j => if j = i then w i + 1 else w j
    match S.fails i (w i) with
    | some e => (w', [], some e)
    | none => (w', pushNext S i w', none)

/-- `event_source.py:229` for each source scheduled by the strategy, before the loop runs: the first
message of each of the sources `0 … k-1` is pushed in this order. -/
def scheduleAll {ε} (S : Sources ε) (k : Nat) : LoopSt Delivered Nat ε :=
  (List.range k).foldl (fun s i => (pushNext S i s.world).foldl LoopSt.act s)
    { world := fun _ => 0 }

end Jq
