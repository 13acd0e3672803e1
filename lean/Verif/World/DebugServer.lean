import Verif.World.Debug
/-
The server of the debugger (`arwendebug/server.go`): requests come over HTTP and each is handled by a goroutine of its own (`net/http`,
`gin`, both external). Nothing is locked, so the steps of requests in progress may come in any order. Commands of `cmd/arwendebug`
(`cli.go` 117-238) that are started in parallel do the same steps, in processes of their own.
-/
namespace Arwen.Debug
open Arwen.Mock

/-- How far a request has come. `ioutil.WriteFile` (external) empties a file before it writes it, so that others may see an empty one
in between. -/
inductive Stage
  /-- nothing has been done -/
  | come
  /-- the world has been read -/
  | read (order : Order) (id : Bytes) (accts : Option AccountMap)
  /-- the file of the world has been emptied -/
  | world (id : Bytes) (reply : Reply) (m : AccountMap)
  /-- the world has been written, or is not to be -/
  | kept (reply : Reply)
  /-- the file of the outcome has been emptied -/
  | outcome (reply : Reply)
  /-- the request has been answered -/
  | ended (res : Result)

/-- the request has not been answered -/
def Stage.open? : Stage → Bool
  | .ended _ => false
  | _ => true

/-- a request that came, and how far it has come -/
structure Thread where
  req : Req
  stage : Stage := .come

/-- the files, the requests that came, and a record of those that were answered, with the answers, in the order in which they were
answered (which the program does not keep) -/
structure Server where
  disk : Disk
  threads : List Thread := []
  answered : List (Req × Result) := []

/-- something happens: a request comes, or one that came makes its next step -/
inductive Move
  | comes (r : Req)
  | goes (i : Nat)

section
variable {A : Type} (E : Env MockWorld A) (L : Lib) (n : Nat) (boot : MockWorld → St MockWorld A) (readCode : Bytes → Option Bytes)

/-- The next step of a request, `arwendebug/facade.go` 21-169 with `arwendebug/database.go` 34-112: reading the world; carrying out the
order and emptying the file of the world; writing it; emptying the file of the outcome; writing it. If two requests write the same
file at the same time, what is left may also be a mixture of what both write; here it is what is written last. `none`: the model's
fuel for nested calls was exhausted. -/
def stepRequest (r : Req) (st : Stage) (d : Disk) : Option (Stage × Disk) :=
  match st with
  | .come =>
    match digest readCode r.act with
    | none => some (.ended .refused, d)
    | some order =>
      match load d r.root r.name with
      | none => some (.ended .unreadable, d)
      | some (id, accts) => some (.read order id accts, d)
  | .read order id accts =>
    match perform E L n boot order accts with
    | none => none
    | some none => some (.ended .crashed, d)
    | some (some (reply, m)) =>
      if order.stores then some (.world id reply m, d.insert (worldFile r.root id) .torn) else some (.kept reply, d)
  | .world id reply m => some (.kept reply, storeWorld r.root id m d)
  | .kept reply =>
    if r.outcome = [] then some (.ended (.done reply), d)
    else some (.outcome reply, d.insert (outcomeFile r.root r.outcome) .torn)
  | .outcome reply => some (.ended (.done reply), d.insert (outcomeFile r.root r.outcome) (.outcome reply))
  | .ended res => some (.ended res, d)

/-- the record after a request has made a step to this stage -/
def recordEnd (r : Req) (st : Stage) (l : List (Req × Result)) : List (Req × Result) :=
  match st with
  | .ended res => l ++ [(r, res)]
  | _ => l

/-- one move; a request that was answered, or never came, makes no step -/
def move (s : Server) : Move → Option Server
  | .comes r => some { s with threads := s.threads ++ [{ req := r }] }
  | .goes i =>
    match s.threads[i]? with
    | none => some s
    | some t =>
      if t.stage.open? then
        (stepRequest E L n boot readCode t.req t.stage s.disk).map fun p =>
          { disk := p.2, threads := s.threads.set i { t with stage := p.1 }, answered := recordEnd t.req p.1 s.answered }
      else some s

/-- moves one after the other -/
def moves : List Move → Server → Option Server
  | [], s => some s
  | x :: rest, s => (move E L n boot readCode s x).bind (moves rest)

end

end Arwen.Debug
