import Verif.Model.StringUtil
import Verif.Model.Trie
import Verif.Model.TrieHeap
import Verif.Model.File
import Verif.Model.Address

/-!
# The project's own unit tests, run on the model: utilities and addresses

These are tests of the model, not proofs of properties: every assertion of `src/test/utils` and
`src/test/socket/address_test.hpp` that does not depend on time or on the machine is evaluated by the kernel.
-/

namespace Cppnet

/-! ### src/test/utils/string_test.hpp -/

/-- string_test.hpp:8-33, `TEST(StringUtil, Split)`. -/
example : Split b!"a,b,c" b!"," [] false = .ok [b!"a", b!"b", b!"c"] ∧
    Split b!"a,b,c" b!"," [] true = .ok [b!"a,", b!"b,", b!"c"] ∧
    Split b!"a,b,c" b!",b" [] false = .ok [b!"a", b!",c"] ∧
    Split b!"a,b,c" b!"c,b" [] false = .ok [b!"a,b,c"] := by decide +kernel

/-- string_test.hpp:35-45, `TEST(StringUtil, UrlCode)`. -/
example : UrlEncode (UrlDecode b!"/a/b/c?a=1&b=%E5%95%8A%E5%95%8A&c=3") = b!"/a/b/c?a=1&b=%E5%95%8A%E5%95%8A&c=3" := by
  decide +kernel

/-- string_test.hpp:47-61, `TEST(StringUtil, WildCardMatch)`. -/
example : WildCardMatch b!"*.chenxuanweb.top" b!"www.chenxuanweb.top" = .ok true ∧
    WildCardMatch b!"*chenxuanweb.top" b!"chenxuanweb.top" = .ok true ∧
    WildCardMatch b!"*.chenxuanweb.top" b!"blog.chenxuanweb.top" = .ok true ∧
    WildCardMatch b!"*.chenxuanweb" b!"www.chenxuanweb.top" = .ok false := by decide +kernel

/-! ### src/test/utils/trie_test.hpp -/

/-- The calls of `Set` in trie_test.hpp:12-16. -/
def trieTestOps : List (TrieOp Nat) :=
  [.set b!"hello" 1, .set b!"world" 2, .set b!"hello.world" 3, .set b!"hello.world.cppnet" 4, .set b!"hello.world.cppnet.cppnet" 5]

/-- The calls of `SetNode` in trie_test.hpp:88-120. -/
def trieOriginOps : List (TrieOp Nat) :=
  [.set b!"/temp" 1, .set b!"/temp/api" 2, .set b!"/tem" 6, .set b!"/temp/apc" 3, .set b!"" 10]

/-- The number of calls of a search's callback that always goes on. -/
def countAll (t : TNode Nat) (key : Str) : Out Nat := trieSearch (fun n _ _ => .ok (n + 1, true)) 0 t key

/-- trie_test.hpp:10-83, `TEST(Trie, Test)`. -/
example : (do
    let t ← trieRun trieTestOps
    let gets ← [b!"hello", b!"world", b!"hello.world", b!"hello.world.cppnet.cppnet.cppnet",
      b!"hello.world.cppnet.cppnet.cppnet.cppnet"].mapM (trieGet t)
    let check ← trieCheck t b!"hello.world"
    let counts ← [b!"hello.world", b!"hello.world.cppnet", b!"hello.world.cppnet.cppnet", b!"hello.world.cppnet.cppnet.cppnet",
      b!"helo;"].mapM (countAll t)
    let t ← trieStep t .reset
    let after ← [b!"hello", b!"world", b!"hello.world", b!"hello.world.cppnet"].mapM (trieGet t)
    .ok (gets, check, counts, after) : Out (List (Option Nat) × Bool × List Nat × List (Option Nat))) =
    .ok ([some 1, some 2, some 3, none, none], true, [2, 3, 4, 4, 0], [none, none, none, none]) := by decide +kernel

/-- trie_test.hpp:86-144, `TEST(Trie, OriginApi)`. -/
example : (do
    let t1 ← trieRun (trieOriginOps.take 1)
    let t2 ← trieRun (trieOriginOps.take 2)
    let t3 ← trieRun (trieOriginOps.take 3)
    let t4 ← trieRun (trieOriginOps.take 4)
    let t5 ← trieRun trieOriginOps
    let gets := [← trieGet t1 b!"/temp", ← trieGet t1 b!"/temp/", ← trieGet t2 b!"/temp/api", ← trieGet t3 b!"/tem",
      ← trieGet t3 b!"/temp/api", ← trieGet t4 b!"/temp/apc", ← trieGet t4 b!"/temp/api", ← trieGet t5 b!""]
    let ends ← trieSearch (fun l _ e => .ok (l ++ [e], true)) [] t5 b!"/temp/apcd"
    let one ← trieSearch (fun n _ _ => .ok (n + 1, false)) 0 t5 b!"/temp"
    .ok (gets, ends, one) : Out (List (Option Nat) × List Bool × Nat)) =
    .ok ([some 1, none, some 2, some 6, some 2, some 3, some 2, some 10], [false, false, false, false], 1) := by decide +kernel

set_option synthInstance.maxSize 1000 in
/-- The same two tests on the trie with pointers. -/
example : (do
    let t ← hTrieRun 100 trieTestOps
    let gets ← [b!"hello", b!"world", b!"hello.world", b!"hello.world.cppnet.cppnet.cppnet"].mapM (hTrieGet t.heap t.root)
    let counts ← [b!"hello.world", b!"hello.world.cppnet", b!"helo;"].mapM
      (hTrieSearch (fun n _ _ => .ok (n + 1, true)) 0 t.heap t.root)
    let t ← hTrieStep 100 t .reset
    let after ← [b!"hello", b!"hello.world"].mapM (hTrieGet t.heap t.root)
    let u ← hTrieRun 100 trieOriginOps
    let origin ← [b!"/temp/apc", b!"/temp/api", b!"/tem", b!""].mapM (hTrieGet u.heap u.root)
    let ends ← hTrieSearch (fun l _ e => .ok (l ++ [e], true)) [] u.heap u.root b!"/temp/apcd"
    .ok (gets, counts, after, origin, ends) :
      Out (List (Option Nat) × List Nat × List (Option Nat) × List (Option Nat) × List Bool)) =
    .ok ([some 1, some 2, some 3, none], [2, 3, 0], [none, none], [some 3, some 2, some 6, some 10],
      [false, false, false, false]) := by decide +kernel

/-! ### src/test/utils/file_test.hpp -/

/-- The working directory of the tests: empty; `.`, `./` and `./name` are resolved. -/
def testRes (path : Str) : FsKey :=
  if path = b!"." ∨ path = b!"./" then []
  else if b!"./".isPrefixOf path then [path.drop 2]
  else [path]

/-- An empty directory. -/
def testFs : FsTree := fun k => if k = [] then some .dir else none

/-- file_test.hpp:8-28, `TEST(File, ReadWrite)`. -/
example : (do
    let (fs, rc) := fileWrite testRes testFs b!"./test.txt" b!"hello world" {}
    let get ← fileGet testRes fs b!"./test.txt" [] {}
    let exist := [fileIsFile testRes fs b!"./test.txt", fileIsFile testRes fs b!".", fileIsFile testRes fs b!"./"]
    let (fs, _) ← fileRemove testRes fs b!"./test.txt" {}
    .ok (rc, get, exist, fileIsFile testRes fs b!"./test.txt") : Out (Int × (Int × Str) × List Bool × Bool)) =
    .ok (0, (0, b!"hello world"), [true, false, false], false) := by decide +kernel

/-- file_test.hpp:30-54, `TEST(File, Suffix)`. -/
example : [b!"./test.txt", b!"./test", b!"./test/test.txt", b!"./test/test", b!"test.txt", b!"test"].map Suffix =
    [.ok b!"txt", .ok b!"", .ok b!"txt", .ok b!"", .ok b!"txt", .ok b!""] := by decide +kernel

/-- file_test.hpp:56-70, `TEST(File, Create)`. -/
example : (do
    let (fs, r1) ← fileCreate testRes testFs b!"test.txt" {}
    let (fs, r2) ← fileCreate testRes fs b!"test.txt" {}
    let (fs, r3) ← fileCreate testRes fs b!"test.txt" {}
    let (fs, _) ← fileRemove testRes fs b!"test.txt" {}
    .ok (r1, r2, r3, fileIsFile testRes fs b!"test.txt") : Out (Int × Int × Int × Bool)) = .ok (0, 0, 0, false) := by decide +kernel

/-- file_test.hpp:72-98, `TEST(File, Append)`. -/
example : (let (fs, r1) := fileAppend testRes testFs b!"test.txt" b!"hello world" {}
    let g1 := fileGet testRes fs b!"test.txt" [] {}
    let (fs, r2) := fileAppend testRes fs b!"test.txt" b!"hello world" {}
    (r1, g1, r2, fileGet testRes fs b!"test.txt" [] {})) =
    (0, .ok (0, b!"hello world"), 0, .ok (0, b!"hello worldhello world")) := by decide +kernel

/-- file_test.hpp:100-128, `TEST(File, LineCount)`. -/
example : (do
    let c0 ← fileLineCount testRes testFs b!"test.txt" {}
    let (fs, _) := fileWrite testRes testFs b!"test.txt" b!"hello world" {}
    let c1 ← fileLineCount testRes fs b!"test.txt" {}
    let (fs, _) := fileAppend testRes fs b!"test.txt" (b!"\n" ++ b!"hello world") {}
    let c2 ← fileLineCount testRes fs b!"test.txt" {}
    let (fs, _) := fileAppend testRes fs b!"test.txt" b!"\n" {}
    let c3 ← fileLineCount testRes fs b!"test.txt" {}
    .ok [c0, c1, c2, c3] : Out (List Nat)) = .ok [0, 1, 2, 2] := by decide +kernel

set_option synthInstance.maxSize 1000 in
/-- file_test.hpp:130-143, `TEST(File, IsDirFile)`. -/
example : ((fileCreate testRes testFs b!"test.txt" {}).map fun (fs, rc) =>
      (rc, fileIsDir testRes fs b!"test.txt", fileIsFile testRes fs b!"test.txt", fileIsFile testRes fs b!"test.txttest",
        fileIsFile testRes fs b!".", fileIsDir testRes fs b!".", fileIsDir testRes fs b!"./")) =
    .ok (0, false, true, false, false, true, true) := by decide +kernel

/-! ### src/test/socket/address_test.hpp -/

/-- address_test.hpp:8-36, `TEST(Address, AddressTurn)`, `AddressUninit`, `AddressDomain` (the resolver answers 127.0.0.1). -/
example : (addressIP (addressInit b!"127.0.0.1" 80).1, addressPort (addressInit b!"127.0.0.1" 80).1) = (b!"127.0.0.1", 80) ∧
    (addressIP {}, addressPort {}) = (b!"0.0.0.0", 0) ∧
    ((addressInitDomain {} 80 (some ⟨127, 0, 0, 1⟩)).2, addressIP (addressInitDomain {} 80 (some ⟨127, 0, 0, 1⟩)).1) =
      (0, b!"127.0.0.1") := by decide +kernel

end Cppnet
