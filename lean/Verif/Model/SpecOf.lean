import Verif.Model.Core

/-!
# The class of a field

`Sequence.spec` and the part of `_determine_spec` that finds out the class. `callback` says how the class of a decided field is found: by an entry of
`_spec_callbacks`, which asks the value with `self[...]`, or by `_oid_pair`, which takes the child out of the list.
-/

namespace Asn1

/-- The children that `_determine_spec` looks at (core.py:3758-3760, 3777-3778): a callback reads the value first; `_lazy_child` (core.py:3497-3505) indexes
`self.children`, which is `None` until something has been read. -/
def specChildren (E : Env) (r : Ops) (callback : Bool) (c : ClassId) (o : Obj Unit) (children : Option (List Child)) : Py (List Child) :=
  if callback then ensureChildren E r c o children
  else match children with
    | some cs => .ok cs
    | none => .error .typeError

/-- `value.spec(name)` on a Sequence or Set (core.py:4017-4054, 3738-3783): the class and the value afterwards. The name is a text. A class with `_fields`
only. -/
def specOf (E : Env) (r : Ops) (callback : Bool) (v : Val) (name : String) : Py (ClassId × Val) :=
  match v with
  | .node c o children mutated =>
    match E.cls c with
    | .seq _ _ _ fields oid =>
      match fieldIndex fields name with
      | none => .error .keyError
      | some idx =>
        match fields[idx]? with
        | none => .error .indexError
        | some f =>
          match oid with
          | none => .ok (f.spec, v)
          | some p =>
            if p.value = idx then do
              let cs ← specChildren E r callback c o children
              let (pick, cs) ← oidOverride r fields oid idx cs
              .ok (pick.valueSpec f.spec, .node c o (some cs) mutated)
            else .ok (f.spec, v)
    | _ => .error .attributeError
  | _ => .error .attributeError

end Asn1
