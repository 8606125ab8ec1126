import Verif.Proofs.Escapes
import Verif.Props.Members
import Verif.Props.Shape
/-
C14 and C28 for all documents of RFC 8259: an escape of a character below U+0080, anywhere, is the only obstacle.
-/
set_option autoImplicit false
namespace PG

/-- `d` begins with the text `b`, after white space. -/
def Opens (b d : Bytes) : Prop := ∃ w rest, Ws w ∧ d = w ++ (b ++ rest)

/-- **C28**, for whole documents.  A JSON object (RFC 8259) is read as its value if none of its strings -- names or values,
known to the schema or not, at any depth -- contains a `\u` escape of a character below U+0080; otherwise no message class
accepts it. -/
theorem C28_documents (obf : Bool) (fs : Fields) (ms : JM) (b d : Bytes) (h : JVal rfc (.obj ms) b) (hb : Opens b d)
    (params : Option Params) (v : fs.Den) :
    (JVal noLow (.obj ms) b → outcome (deserialize (.msg obf fs) d params v) =
      some (decide (((Ty.msg obf fs).absorb (.obj ms) v).1 = .ok), ((Ty.msg obf fs).absorb (.obj ms) v).2)) ∧
    (¬ JVal noLow (.obj ms) b → ∃ w, outcome (deserialize (.msg obf fs) d params v) = some (false, w)) := by
  obtain ⟨w, rest, hw, rfl⟩ := hb
  refine ⟨fun hn => doc_outcome _ _ _ ⟨w, b, rest, rfl, hw, noLow_wide hn, trivial⟩, fun hn => ?_⟩
  obtain ⟨inner, rfl, hi⟩ := h
  rcases low_members ms hi with hl | hl
  · exact absurd ⟨inner, rfl, hl⟩ hn
  · obtain ⟨r, h1, h2⟩ := breaks_refused_in hl hw rest obf fs params v
    simp only [List.cons_append, List.append_assoc, List.nil_append] at h1 ⊢
    exact ⟨r.obj, by rw [h1, ← h2]; rfl⟩

/-- **C14**, exactly.  Take two JSON objects that differ in members unknown to the schema only, the first of which is read
successfully.  The second one is read with the same result if and only if it has no `\u` escape of a character below U+0080. -/
theorem C14_unknown_ignored_iff (obf : Bool) (fs : Fields) (hn : (Ty.msg obf fs).NamesOk) (m1 m2 : JM)
    (h : (Ty.msg obf fs).prune (.obj m1) = (Ty.msg obf fs).prune (.obj m2)) (b1 b2 d1 d2 : Bytes)
    (h1 : JVal rfc (.obj m1) b1) (h2 : JVal rfc (.obj m2) b2) (hb1 : Opens b1 d1) (hb2 : Opens b2 d2)
    (p1 p2 : Option Params) (v o : fs.Den) (hok : outcome (deserialize (.msg obf fs) d1 p1 v) = some (true, o)) :
    outcome (deserialize (.msg obf fs) d2 p2 v) = some (true, o) ↔ JVal noLow (.obj m2) b2 := by
  have hl1 : JVal noLow (.obj m1) b1 := Classical.byContradiction fun hc => by
    obtain ⟨w, hw⟩ := (C28_documents obf fs m1 b1 d1 h1 hb1 p1 v).2 hc
    rw [hok] at hw
    cases hw
  have e1 := (C28_documents obf fs m1 b1 d1 h1 hb1 p1 v).1 hl1
  constructor
  · intro h3
    refine Classical.byContradiction fun hc => ?_
    obtain ⟨w, hw⟩ := (C28_documents obf fs m2 b2 d2 h2 hb2 p2 v).2 hc
    rw [h3] at hw
    cases hw
  · intro hl2
    rw [(C28_documents obf fs m2 b2 d2 h2 hb2 p2 v).1 hl2, ← hok, e1, ← Ty.absorb_prune _ hn (.obj m2), ← h, Ty.absorb_prune _ hn]

/-- The hypotheses are met on both sides: `{"x":"é","number":5}` with the escape `\u00e9` is read like `{"number":5}`, and
`{"\u0078":1,"number":5}` is refused because of a name. -/
theorem C14_escapes_example :
    outcome (deserialize Demo.address b!"{\"number\":5}" none Demo.address.new) = some (true, Demo.onlyNumber 5) ∧
    outcome (deserialize Demo.address b!"{\"x\":\"\\u00e9\",\"number\":5}" none Demo.address.new) = some (true, Demo.onlyNumber 5) ∧
    outcome (deserialize Demo.address b!"{\"\\u0078\":1,\"number\":5}" none Demo.address.new) = some (false, Demo.address.new) := by
  decide +kernel

example : JVal noLow (.obj (.cons b!"x" (.str [0xC3, 0xA9]) .nil)) b!"{\"x\":\"\\u00e9\"}" ∧
    JVal rfc (.obj (.cons b!"x" .null .nil)) b!"{\"\\u0078\":null}" := by
  refine ⟨⟨b!"\"x\":\"\\u00e9\"", rfl, [], b!"x", [], [], b!"\"\\u00e9\"", [], rfl, Ws.nil, ?_, Ws.nil, Ws.nil, ?_, Ws.nil⟩,
    ⟨b!"\"\\u0078\":null", rfl, [], b!"\\u0078", [], [], b!"null", [], rfl, Ws.nil, ?_, Ws.nil, Ws.nil, rfl, Ws.nil⟩⟩
  · exact .raw (by unfold rfcRaw; decide) .nil
  · refine ⟨b!"\\u00e9", rfl, ?_⟩
    exact StrChars.uni (h := b!"00e9") (cp := 0xE9) (t := []) (c := [])
      ⟨48, 48, 101, 57, 0, 0, 14, 9, rfl, .inl (by decide), .inl (by decide), .inr (.inr (by decide)), .inl (by decide), rfl⟩
      (by decide) (by decide) .nil
  · exact StrChars.uni (h := b!"0078") (cp := 0x78) (t := []) (c := [])
      ⟨48, 48, 55, 56, 0, 0, 7, 8, rfl, .inl (by decide), .inl (by decide), .inl (by decide), .inl (by decide), rfl⟩
      (by decide) trivial .nil

end PG
