import Verif.Model.Schema
import Verif.Spec.Json
/-
What reading a JSON value into an object means, as a function on JSON values (no text, no tokens, no fuel).
The conversions of scalars (`intOfText`, `fltOfText`, `b64Dec`) are shared with the model.
-/
namespace PG

/-- A JSON scalar read into an arithmetic variable. -/
def Prim.absorb : (p : Prim) → J → p.Den → RC × p.Den
  | _, .null, v => (.nil, v)
  | .int k, .num l, _ => (.ok, intOfText k l)
  | .flt k, .num l, _ => (.ok, fltOfText k l)
  | .bool, .bool b, _ => (.ok, b)
  | _, _, v => (.error, v)

/-- Array elements read into the end of a container. -/
def absorbElems {α : Type} (f : J → RC × α) : JL → List α → RC × List α
  | .nil, v => (.ok, v)
  | .cons j t, v =>
    match f j with
    | (.ok, x) => absorbElems f t (v ++ [x])
    | _ => (.error, v)

/-- Object members read in order. -/
def absorbMembers {α : Type} (f : Bytes → J → α → RC × α) : JM → α → RC × α
  | .nil, v => (.ok, v)
  | .cons k j t, v =>
    match f k j v with
    | (.ok, v) => absorbMembers f t v
    | (.nil, v) => absorbMembers f t v
    | (_, v) => (.error, v)

mutual
/-- A JSON value read into an object of a generated type: the return code and the new object. -/
def Ty.absorb : (t : Ty) → J → t.Den → RC × t.Den
  | .num p, j, v =>
    let r := p.absorb j p.zero
    (r.1, if r.1 = .nil then v else ⟨r.2, false⟩)
  | .raw p, j, v => p.absorb j v
  | .str, j, _ =>
    match j with
    | .null => (.nil, ⟨[], false⟩)
    | .str s => (.ok, ⟨s, false⟩)
    | _ => (.error, ⟨[], false⟩)
  | .bytes, j, v =>
    match j with
    | .null => (.nil, v)
    | .str s => (.ok, v ++ (b64Dec s).1)
    | _ => (.error, v)
  | .rep t, j, v =>
    match j with
    | .null => (.nil, v)
    | .arr xs => absorbElems (fun j => t.absorb j t.new) xs v
    | _ => (.error, v)
  | .msg obf fs, j, v =>
    match j with
    | .null => (.nil, v)
    | .obj ms => absorbMembers (fun k j v =>
        match indexOf obf fs k with
        | none => (.nil, v)
        | some i => fs.absorbAt i j v) ms v
    | _ => (.error, v)
/-- A JSON value read into the `i`-th persistent field. -/
def Fields.absorbAt : (fs : Fields) → Nat → J → fs.Den → RC × fs.Den
  | .nil, _, _, v => (.nil, v)
  | .cons f t rest, i, j, v =>
    if f.transient then
      let r := rest.absorbAt i j v.2
      (r.1, (v.1, r.2))
    else
      match i with
      | 0 =>
        let r := t.absorb j v.1
        (r.1, (r.2, v.2))
      | i + 1 =>
        let r := rest.absorbAt i j v.2
        (r.1, (v.1, r.2))
end

end PG
