import Verif.Model.Chunks

/-!
# Merging a list of profiles with a process pool

Models `merge`, `merge_profile_list` (dataprofiler/profilers/profiler_utils.py:805-850) and the
behaviour of `multiprocessing.Pool.starmap` they rely on.
-/

namespace Verif.MergeList

open Verif

variable {α β : Type}

/-- Book-keeping of one `starmap` call: the result slots and the first failure received. -/
structure Slots (β : Type) where
  results : List (Option β)
  failure : Option Err

/-- A worker finishes task `i` (CPython `multiprocessing.pool.MapResult._set`): a success is written
into slot `i`; the first failure received is remembered. -/
def finish (tasks : List (Except Err β)) (s : Slots β) (i : ℕ) : Slots β :=
  match tasks[i]? with
  | none => s
  | some (.ok b) => { s with results := s.results.set i (some b) }
  | some (.error e) => { s with failure := some (s.failure.getD e) }

/-- `pool.starmap(f, args)`: `tasks` are the results of the individual calls (each call is a pure
function of its argument), `order` the order in which the workers finish. Returns the slots once all
tasks are done, or raises the first failure received. -/
def starmap (order : List ℕ) (tasks : List (Except Err β)) : Except Err (List β) :=
  let s := order.foldl (finish tasks) ⟨List.replicate tasks.length none, none⟩
  match s.failure with
  | some e => .error e
  | none => .ok (s.results.filterMap id)

/-- `merge(top_profile, other_profile)` on a tuple produced by `chunk(_, 2)`
(profiler_utils.py:805-821): a singleton is returned unchanged. `add` is the profiles' `+`. -/
def mergeTuple (add : α → α → Except Err α) : List α → Except Err α
  | [a] => .ok a
  | [a, b] => add a b
  | _ => .error .typeError

/-- The `while len(list_of_profiles) > 1` loop (profiler_utils.py:844-847). `sched r` is the
completion order of the pool in round `r`; `r` counts rounds. `fuel` bounds the rounds; the theorems
show that `list.length` rounds always suffice (`none` = still running). -/
def rounds (add : α → α → Except Err α) (sched : ℕ → List ℕ) :
    ℕ → ℕ → List α → Option (Except Err (List α))
  | fuel, r, l =>
    if l.length > 1 then
      match fuel with
      | 0 => none
      | fuel + 1 =>
        match starmap (sched r) ((Chunks.chunk l 2).map (mergeTuple add)) with
        | .error e => some (.error e)
        | .ok l' => rounds add sched fuel (r + 1) l'
    else some (.ok l)

/-- `merge_profile_list` (profiler_utils.py:824-850). `remove` takes the data labeler out of a
profile (`_remove_data_labelers`), `restore` puts one back. The labeler kept is that of the last
profile of the list; `[0]` of an empty list raises `IndexError`. -/
def mergeProfileList {L : Type} (add : α → α → Except Err α) (remove : α → α × L)
    (restore : α → L → α) (sched : ℕ → List ℕ) (fuel : ℕ) (l : List α) :
    Option (Except Err α) :=
  let stripped := l.map fun p => (remove p).1
  let labeler := (l.map fun p => (remove p).2).getLast?
  match rounds add sched fuel 0 stripped with
  | none => none
  | some (.error e) => some (.error e)
  | some (.ok l') =>
    match l', labeler with
    | p :: _, some lab => some (.ok (restore p lab))
    | _, _ => some (.error .indexError)

end Verif.MergeList
