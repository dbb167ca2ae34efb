import Verif.Model.WebServer
import Verif.Spec.Server
import Verif.Spec.Strings

/-!
# What the configuration of the web server means
-/

namespace Cppnet.Spec

/-- One thing the configuration asks for. -/
inductive Item where
  | redirect (r : RedirectConfig)
  | dir (s : StaticConfig)
  | file (s : StaticConfig)

/-- The things a configuration asks for, in order; `isDir` says which paths are directories. -/
def itemsOf (isDir : Str → Bool) (c : WebConfig) : List Item :=
  c.redirects.map .redirect ++ c.statics.map fun s => if isDir s.path then .dir s else .file s

/-- The route of an item. -/
def Item.route : Item → Str
  | .redirect r => r.route
  | .dir s => s.route
  | .file s => s.route

/-- The host of an item; empty: any. -/
def Item.host : Item → Str
  | .redirect r => r.host
  | .dir s => s.host
  | .file s => s.host

/-- Is the item about this path of a URL?  Directories are about everything below their route. -/
def Item.about (path : Str) : Item → Bool
  | .redirect r => r.route == path
  | .dir s => s.route.isPrefixOf path
  | .file s => s.route == path

/-- All routes are ASCII. -/
def AsciiRoutes (items : List Item) : Prop := ∀ x ∈ items, Ascii x.route

/-- No route is a proper prefix of the route of an earlier item, unless an earlier item has the same route. -/
def RoutesGrow : List Str → List Item → Prop
  | _, [] => True
  | earlier, x :: xs =>
    (x.route = [] ∨ x.route ∈ earlier ∨ ∀ q ∈ earlier, ¬ x.route <+: q) ∧ RoutesGrow (earlier ++ [x.route]) xs

instance RoutesGrow.dec : (earlier : List Str) → (items : List Item) → Decidable (RoutesGrow earlier items)
  | _, [] => .isTrue trivial
  | earlier, x :: xs =>
    have := RoutesGrow.dec (earlier ++ [x.route]) xs
    inferInstanceAs (Decidable (_ ∧ _))


end Cppnet.Spec
