import Verif.Concurrent

/-!
# Threads that synchronise

Threads as in `Verif/Concurrent.lean`, but it is not laid down in advance which thread uses which object, nor what the
threads do: what happens is a list of events, in which any thread begins any call, or makes the next access of the call it is in.
How threads wait for each other (mutexes, joins, queues) is not modelled; `Spec/Synced.lean` says what has to come out of it.
Nothing in this file models code of /repo.
-/

set_option autoImplicit false

namespace Verif

/-- What happens next. -/
inductive Event (Th Op : Type) where
  /-- thread `i`, if it is between two calls, begins the call `o`; `e` is what the environment decides during this call -/
  | start (i : Th) (o : Op) (e : Env)
  /-- thread `i`, if it is in a call, makes one access, or the call ends -/
  | step (i : Th)

/-- A call that has ended. -/
structure Ended (Th Op Out : Type) where
  thread : Th
  op : Op
  saw : Seen Out

/-- The memory and all threads; the calls they are in; the calls that have ended, in the order in which they did. -/
structure Sys (Th L A R B Op Out : Type) where
  conf : Conf Th L A R B Out
  run : Th → Option Op
  done : List (Ended Th Op Out)

/-- What a thread is about to see of its call, if the call is about to end. -/
def Thread.ending {L A R B Out : Type} (t : Thread L A R B Out) : Option (Seen Out) :=
  match t.cur with
  | some (.ret out) => some (.ret out)
  | some (.throw x) => some (.exn x)
  | _ => none

namespace Sys
variable {Th L A R B Op Out : Type} [DecidableEq Th] [DecidableEq L] [DecidableEq R] [Body B]

/-- An event happens.  `prog` are the programs of the calls. -/
def tick (prog : Op → Prog L A R B Out) : Event Th Op → Sys Th L A R B Op Out → Outcome (Sys Th L A R B Op Out)
  | .start i o e, c =>
    match c.run i with
    | some _ => .running c
    | none => .running
      { c with conf := c.conf.setTh i ⟨some (prog o), e, 0, 0, (c.conf.th i).log⟩, run := upd c.run i (some o) }
  | .step i, c =>
    match c.run i with
    | none => .running c
    | some o =>
      match Conf.tick prog (fun _ _ => none) i (c.conf.th i).env c.conf with
      | .running c' =>
        match (c.conf.th i).ending with
        | some a => .running ⟨c', upd c.run i none, c.done ++ [⟨i, o, a⟩]⟩
        | none => .running { c with conf := c' }
      | .terminated => .terminated
      | .ub u => .ub u

/-- The events happen one after the other. -/
def exec (prog : Op → Prog L A R B Out) : List (Event Th Op) → Sys Th L A R B Op Out → Outcome (Sys Th L A R B Op Out)
  | [], c => .running c
  | ev :: evs, c =>
    match tick prog ev c with
    | .running c' => exec prog evs c'
    | .terminated => .terminated
    | .ub u => .ub u

/-- No thread has begun, in the memory of `s`. -/
def start (s : St L A R B) : Sys Th L A R B Op Out := ⟨Conf.start s, fun _ => none, []⟩

end Sys
end Verif
