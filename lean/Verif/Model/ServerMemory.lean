import Verif.Model.HttpServer
import Verif.Model.TrieMemory

/-!
# Model of the registration of routes when memory runs out (`src/cppnet/http/server/http_server.cpp`)

A call that throws `std::bad_alloc` ends there; the object `set_data`, which nobody else holds yet, is destroyed with it.
-/

namespace Cppnet
variable {σ : Type}

/-- A call of `RegisterHandler` (http_server.cpp:54-57): the prefix of the group, the path, and what is to be stored. -/
structure RegCall (σ : Type) where
  route : Str
  path : Str
  entry : Entry σ

/-- Objects are made one after the other; `none` if one of them cannot be made (http_server.cpp:60-64). -/
def Mem.objectsOf : Nat → Mem → Option Mem
  | 0, m => some m
  | n + 1, m =>
    match m.object with
    | none => none
    | some m => Mem.objectsOf n m

/-- http_server.cpp:54-67, `HttpGroup::RegisterHandler`; the result says whether the call has returned.  Line 60 makes the vector, line
61 the entry with its copies of the callback and of the filters and then the room for it, line 62 the text of the key; line 64 makes
an entry and the room for it, and a `push_back` that throws leaves the vector as it was. -/
def registerMem (s : Server σ) (r : RegCall σ) (m : Mem) : Out (Server σ × Bool) := do
  match ← trieGet s.trie r.path with
  | none =>
    match m.objectsOf 3 with
    | none => .ok (s, false)
    | some m =>
      match m.text with
      | none => .ok (s, false)
      | some m => do
        let t ← trieSetMem s.trie (r.route ++ r.path) s.store.length m
        match t with
        | (t, none) => .ok ({ s with trie := t }, false)
        | (t, some _) => .ok ({ trie := t, store := s.store ++ [[r.entry]] }, true)
  | some ref =>
    match m.objectsOf 2 with
    | none => .ok (s, false)
    | some _ => .ok ({ s with store := s.store.modify ref (· ++ [r.entry]) }, true)

/-- A program that registers routes and catches what the calls throw (http_server.cpp:54-67). -/
def registerAllMem (s : Server σ) : List (RegCall σ × Mem) → Out (Server σ)
  | [] => .ok s
  | (r, m) :: hist => do
    let x ← registerMem s r m
    registerAllMem x.1 hist

end Cppnet
