/-! Python dictionaries: association lists in insertion order.  Setting an existing key keeps its place, a
new key goes last (CPython `dict`, `OrderedDict`). -/
namespace Jq

abbrev Dict (κ β : Type) := List (κ × β)

variable {κ β : Type} [DecidableEq κ]

/-- `d.get(k)`. -/
def dget : Dict κ β → κ → Option β
  | [], _ => none
  | (k', v) :: d, k => if k' = k then some v else dget d k

/-- `d[k] = v`. -/
def dset : Dict κ β → κ → β → Dict κ β
  | [], k, v => [(k, v)]
  | (k', v') :: d, k, v => if k' = k then (k', v) :: d else (k', v') :: dset d k v

/-- The keys in order. -/
def dkeys (d : Dict κ β) : List κ := d.map (·.1)

/-- The values in order. -/
def dvalues (d : Dict κ β) : List β := d.map (·.2)

/-- A dict as Python keeps it: keys are distinct. -/
def DictOk (d : Dict κ β) : Prop := (dkeys d).Nodup

end Jq
