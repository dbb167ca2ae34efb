import Verif.Model.ServerThreads

/-!
# Specification for C177: clients that stay connected
-/

namespace Cppnet.Spec
open MtSys

/-- The client of task `i` stays, whether it sends requests or nothing at all: whatever is asked about its connection during `tr`, the
answer is good (there is something to read, the request is well-formed, the response can be written). -/
def Stays (i : Nat) (tr : List MtLabel) : Prop := ∀ a, .task i a ∈ tr → a.ok = true

/-- The connection of task `i` waits for a worker. -/
def WaitsForWorker (s : MtSys) (i : Nat) : Prop := ∃ fd, s.tasks[i]? = some (fd, .queued)

/-- Task `i` waits for the next request of its client. -/
def WaitsForClient (s : MtSys) (i : Nat) : Prop := ∃ fd, s.tasks[i]? = some (fd, .peek)

/-- The tasks that workers are busy with. -/
def busy (s : MtSys) : Nat := (s.tasks.filter fun t => t.2 ≠ .queued ∧ t.2 ≠ .done).length

end Cppnet.Spec
