/-
Model of `std::map<std::string, T>`: the list of its entries in the order of iteration.
The order of `std::string` is by bytes, that of Lean's `String` by code points; they agree for UTF-8.
-/
namespace Verif.StdMap

abbrev Map (α : Type) := List (String × α)

/-- `find`. -/
def find {α} (m : Map α) (k : String) : Option α :=
  match m with
  | [] => none
  | (k', v) :: m => if k' = k then some v else find m k

/-- `m[k] = v`. -/
def set {α} (m : Map α) (k : String) (v : α) : Map α :=
  match m with
  | [] => [(k, v)]
  | (k', v') :: m => if k < k' then (k, v) :: (k', v') :: m else if k = k' then (k, v) :: m else (k', v') :: set m k v

/-- The entries are in order: every list built with `set` from the empty one. -/
def Ordered {α} (m : Map α) : Prop := m.Pairwise (fun a b => a.1 < b.1)

end Verif.StdMap
