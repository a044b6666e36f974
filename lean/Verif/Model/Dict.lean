/-!
# Python dictionaries

Insertion-ordered association lists. Used wherever the code uses `dict` or `numba.typed.Dict`.
-/

namespace Respy

/-- A Python dictionary as the list of its items in insertion order
(used for the dictionaries of all modules, e.g. `respy/state_space.py:132-187`). -/
abbrev Dict (κ ν : Type _) := List (κ × ν)

namespace Dict

variable {κ ν : Type _} [DecidableEq κ]

/-- `d[k] = v`: an existing key keeps its position, a new key is appended (e.g. `respy/state_space.py:345-356`). -/
def insert : Dict κ ν → κ → ν → Dict κ ν
  | [], k, v => [(k, v)]
  | (k', v') :: d, k, v => if k' = k then (k', v) :: d else (k', v') :: insert d k v

/-- `d[k]`; `none` is a `KeyError` (e.g. `respy/state_space.py:315-333`). -/
def get? : Dict κ ν → κ → Option ν
  | [], _ => none
  | (k', v') :: d, k => if k' = k then some v' else get? d k

/-- `{**d, **e}` and `dict(items)`: insert the items one after the other
(e.g. `respy/pre_processing/model_processing.py:41, 385`). -/
def update (d : Dict κ ν) (items : List (κ × ν)) : Dict κ ν :=
  items.foldl (fun d kv => d.insert kv.1 kv.2) d

/-- `{k: v for k, v in items}` (e.g. `respy/state_space.py:132-187`). -/
def ofItems (items : List (κ × ν)) : Dict κ ν := update [] items

/-- `list(d)` (e.g. `respy/parallelization.py:97-102`). -/
def keys (d : Dict κ ν) : List κ := d.map Prod.fst

/-- `list(d.values())` (e.g. `respy/parallelization.py:76`). -/
def values (d : Dict κ ν) : List ν := d.map Prod.snd

end Dict
end Respy
