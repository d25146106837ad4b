import Verif.Container.Extra

/-!
# Containers found in headers

`ModuleParser._register_container` (castxmlparser.py:1589-1711), the places that queue containers (1069-1088, 1385-1406)
and the one that works the queue off (1457-1461), within `_scan_namespace_types` (1041-1587).

Simplifications: what pygccxml finds is given: for every free function and every class the containers its parameters,
results and members use, and for every container the kind, the normalized name and the types of its elements (and keys);
failures of pygccxml to find an element type (1647-1669) are not modelled.  A class nested in another follows it in the
list of classes.  Type aliases are not modelled; annotations and the order of classes are C82's matter.
-/
namespace Verif.Containers
open Verif Verif.Container

/-- The C++ containers that `find_container_traits` tells apart, lines 1596-1632. -/
inductive Std where
  | kind (k : Kind)
  | multimap | hashMap | hashMultimap
  deriving DecidableEq, Repr

/-- The `container_type` for each, lines 1596-1632; `none`: not registered. -/
def containerType : Std → Option Str
  | .kind .list => some "list".toList
  | .kind .deque => some "dequeue".toList
  | .kind .queue => some "queue".toList
  | .kind .priorityQueue => some "dequeue".toList
  | .kind .vector => some "vector".toList
  | .kind .stack => some "stack".toList
  | .kind .set => some "set".toList
  | .kind .multiset => some "multiset".toList
  | .kind .hashSet => some "hash_set".toList
  | .kind .hashMultiset => some "hash_multiset".toList
  | .kind .map => some "map".toList
  | .kind .unorderedMap => some "map".toList
  | .multimap | .hashMap | .hashMultimap => none

/-- A type of an element or key: one that is always known, a class or enumeration, a container. -/
inductive Ty where
  | basic
  | cls (c : Nat)
  | cont (name : Str)
  deriving DecidableEq, Repr

/-- A use of a container: its traits, `name`, and the types of its elements and, for mappings, keys. -/
structure Use where
  std : Std
  name : Str
  needs : List Ty
  deriving DecidableEq, Repr

/-- A namespace: its enumerations, the containers its free functions use, its classes with the containers their public
members use, its namespaces. -/
inductive NSpace where
  | node (enums : List Nat) (funs : List Use) (classes : List (Nat × List Use)) (kids : List NSpace)

/-- What the scan has done: `queue` is `_containers_to_register`, `tried` the keys of `_containers_registered`, `types` the
types the module knows, in the order of registration, `script` the lines of the script. -/
structure St where
  queue : List Use
  tried : List Str
  types : List Ty
  script : List (Ty × List Ty)

/-- Whether a type is found, as the type handlers do. -/
def known (types : List Ty) (t : Ty) : Bool := decide (t = .basic) || types.contains t

/-- `_register_container`, lines 1589-1711; `anon` is `enable_anonymous_containers`. -/
def register (anon : Bool) (s : St) (u : Use) : St :=
  if u.name.contains '<' && !anon then s
  else match containerType u.std with
    | none => s
    | some _ =>
      if s.tried.contains u.name then s
      else
        let s := { s with tried := s.tried ++ [u.name], script := s.script ++ [(.cont u.name, u.needs)] }
        if u.needs.all (known s.types) then { s with types := s.types ++ [.cont u.name] } else s

/-- An enumeration or a class: line of the script (1128, 1380) and registration (1130, 1413). -/
def declare (s : St) (c : Nat) : St := { s with types := s.types ++ [.cls c], script := s.script ++ [(.cls c, [])] }

/-- A class: its containers are queued (1387-1406), it is registered, and the scan for nested classes queues those of the
free functions again (1432, 1069-1088). -/
def scanClass (funs : List Use) (s : St) (c : Nat × List Use) : St :=
  let s := declare { s with queue := s.queue ++ c.2 } c.1
  { s with queue := s.queue ++ funs }

/-- A namespace without those in it, lines 1069-1461. -/
def scanOwn (anon : Bool) (enums : List Nat) (funs : List Use) (classes : List (Nat × List Use)) (s : St) : St :=
  let s := { s with queue := s.queue ++ funs }
  let s := enums.foldl declare s
  let s := classes.foldl (scanClass funs) s
  { s.queue.foldl (register anon) s with queue := [] }

mutual
/-- `_scan_namespace_types`, lines 1041-1587. -/
def NSpace.scan (anon : Bool) : NSpace → St → St
  | .node enums funs classes kids, s => scanAll anon kids (scanOwn anon enums funs classes s)
/-- The nested namespaces, lines 1575-1580. -/
def scanAll (anon : Bool) : List NSpace → St → St
  | [], s => s
  | n :: l, s => scanAll anon l (n.scan anon s)
end

/-- `scan_types`. -/
def scanTypes (anon : Bool) (n : NSpace) : St := n.scan anon ⟨[], [], [], []⟩

end Verif.Containers
