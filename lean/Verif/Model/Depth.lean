import Verif.Model.Entity
/-
How deeply the calls of the readers nest: `ignore_value` calls `ignore_array`/`ignore_object`, which call `ignore_value` for
what they contain (protogen.hh:541-602); `json<T>::read` of a container or of a message calls the reader of what it contains
(json-array.hh:45-60, json.hh:41-58).  Every level takes its share of the call stack.  The functions below follow the same
path through the same input as the readers and count the levels; a level is one value with everything that is called for it
except for the values it contains.
-/
set_option autoImplicit false
namespace PG

mutual

/-- protogen.hh:577-602 `ignore_value()`: levels used. -/
def ignoreDepth : Nat → Tz → Nat
  | 0, _ => 0
  | n + 1, tz =>
    match tz.cur.id with
    | .objs => 1 + ignoreObjDepth n tz.next
    | .arrs => 1 + ignoreArrDepth n tz.next
    | _ => 1

/-- protogen.hh:546-554, the loop of `ignore_array()`: levels used by the elements. -/
def ignoreArrDepth : Nat → Tz → Nat
  | 0, _ => 0
  | n + 1, tz =>
    if tz.cur.id = .arre then 0
    else
      Nat.max (ignoreDepth n tz)
        (match ignoreValue n tz with
        | (.ok, tz) =>
          match tz.expect .comma with
          | (true, tz) => ignoreArrDepth n tz
          | (false, _) => 0
        | _ => 0)

/-- protogen.hh:562-574, the loop of `ignore_object()`: levels used by the members. -/
def ignoreObjDepth : Nat → Tz → Nat
  | 0, _ => 0
  | n + 1, tz =>
    if tz.cur.id = .obje then 0
    else
      match tz.expect .string with
      | (false, _) => 0
      | (true, tz) =>
        match tz.expect .colon with
        | (false, _) => 0
        | (true, tz) =>
          Nat.max (ignoreDepth n tz)
            (match ignoreValue n tz with
            | (.ok, tz) =>
              match tz.expect .comma with
              | (true, tz) => ignoreObjDepth n tz
              | (false, _) => 0
            | _ => 0)

end

/-- json-array.hh:45-60, the loop of the container reader: levels used by the elements; `dp` are the levels used by the
element reader `rd`. -/
def readArrLoopDepth {α : Type} (rd : Tz → Res α) (dp : Tz → Nat) : Nat → Tz → Nat
  | 0, _ => 0
  | n + 1, tz =>
    Nat.max (dp tz)
      (match rd tz with
      | (.error, _, _) => 0
      | (.fuel, _, _) => 0
      | (_, tz, _) =>
        match tz.expect .comma with
        | (true, tz) => readArrLoopDepth rd dp n tz
        | (false, _) => 0)

/-- json-array.hh:38-61 `json<T>::read` for containers: levels used. -/
def readArrDepth {α : Type} (rd : Tz → Res α) (dp : Tz → Nat) (n : Nat) (tz : Tz) : Nat :=
  if tz.cur.id = .nil then 1
  else
    match tz.expect .arrs with
    | (false, _) => 1
    | (true, tz) =>
      match tz.expect .arre with
      | (true, _) => 1
      | (false, tz) => 1 + readArrLoopDepth rd dp n tz

/-- json.hh:41-58, the loop of `read_object`: levels used by the members; `df` are the levels used by `J::read_field`. -/
def readObjLoopDepth {α : Type} (rf : Bytes → Tz → α → Res α) (df : Bytes → Tz → α → Nat) : Nat → Tz → α → Nat
  | 0, _, _ => 0
  | n + 1, tz, v =>
    let name := tz.cur.value
    match tz.expect .string with
    | (false, _) => 0
    | (true, tz) =>
      match tz.expect .colon with
      | (false, _) => 0
      | (true, tz) =>
        Nat.max (df name tz v)
          (match rf name tz v with
          | (.error, _, _) => 0
          | (.fuel, _, _) => 0
          | (.ok, tz, v) =>
            match objStep tz with
            | (none, tz) => readObjLoopDepth rf df n tz v
            | (some _, _) => 0
          | (.nil, tz, v) =>
            Nat.max (ignoreDepth n tz)
              (match ignoreValue n tz with
              | (.error, _) => 0
              | (.fuel, _) => 0
              | (_, tz) =>
                match objStep tz with
                | (none, tz) => readObjLoopDepth rf df n tz v
                | (some _, _) => 0))

/-- json.hh:33-61 `read_object`: levels used. -/
def readObjDepth {α : Type} (rf : Bytes → Tz → α → Res α) (df : Bytes → Tz → α → Nat) (n : Nat) (tz : Tz) (v : α) : Nat :=
  if tz.cur.id = .nil then 1
  else
    match tz.expect .objs with
    | (false, _) => 1
    | (true, tz) =>
      match tz.expect .obje with
      | (true, _) => 1
      | (false, tz) => 1 + readObjLoopDepth rf df n tz v

mutual

/-- `json<T>::read`: levels used. -/
def Ty.readDepth : (t : Ty) → Nat → Tz → t.Den → Nat
  | .num _, _, _, _ => 1
  | .raw _, _, _, _ => 1
  | .str, _, _, _ => 1
  | .bytes, _, _, _ => 1
  | .rep t, n, tz, _ => readArrDepth (fun tz => t.read n tz t.new) (fun tz => t.readDepth n tz t.new) n tz
  | .msg obf fs, n, tz, v =>
    readObjDepth (fun name tz v =>
        match indexOf obf fs name with
        | none => (.nil, tz, v)
        | some i => fs.readAt i n tz v)
      (fun name tz v =>
        match indexOf obf fs name with
        | none => 0
        | some i => fs.readAtDepth i n tz v) n tz v

/-- code.txt:69-85 `read_field` after `index`: levels used by the reader of the field. -/
def Fields.readAtDepth : (fs : Fields) → Nat → Nat → Tz → fs.Den → Nat
  | .nil, _, _, _, _ => 0
  | .cons f t rest, i, n, tz, v =>
    if f.transient then rest.readAtDepth i n tz v.2
    else
      match i with
      | 0 => t.readDepth n tz v.1
      | i + 1 => rest.readAtDepth i n tz v.2

end

/-- protogen.hh:649-653 `deserialize(const std::string&)`: levels used. -/
def deserializeDepth (t : Ty) (input : Bytes) (params : Option Params) (v : t.Den) : Nat :=
  t.readDepth (fuelFor input) (Tz.open' (IStream.open' input) (ctxParams params).err) v

end PG
