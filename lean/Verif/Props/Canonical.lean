import Verif.Proofs.GenErase
import Verif.Props.Grammar
/-
C52: the order of the fields.
-/
set_option autoImplicit false
namespace PG.Gen
open PG.Proto

/-! ### C52 -/

/-- What is generated is determined by what the generator uses of the sorted schema. -/
theorem output_congr {N N' : Nat} {text text' : Bytes} {t t' : Tree} (h : parse N text = .ok t)
    (h' : parse N' text' = .ok t') (hm : (sortTree t).messages.map core = (sortTree t').messages.map core)
    (ho : OptMap.erase t.options = OptMap.erase t'.options) (fileName : Bytes)
    (hok : (output fileName t).res = .ok ()) : output fileName t' = output fileName t := by
  have hs := sortTree_same t
  have hs' := sortTree_same t'
  have hl := hs.linked (parse_linked h)
  have hl' := hs'.linked (parse_linked h')
  obtain ⟨h1, order, h2, h3⟩ := generate_ok hok
  have hlen : (sortTree t).messages.length = (sortTree t').messages.length := by
    have := congrArg List.length hm
    simpa using this
  have h1' : FileOptionsOk (sortTree t').options := by
    have h1 : FileOptionsOk t.options := h1
    rw [← fileOptionsOk_erase, ho, fileOptionsOk_erase] at h1
    exact h1
  have h2' : sortAll (sortTree t').messages (t'.messages.length + 1) = .ok order := by
    rw [← sortAll_core, ← hm, sortAll_core, hs'.1, ← hlen, ← hs.1]
    exact h2
  have h3' : ∀ m ∈ (sortTree t').messages, MessageOk (sortTree t').messages m := by
    intro m' hm'
    have : core m' ∈ (sortTree t).messages.map core := by rw [hm]; exact List.mem_map_of_mem hm'
    obtain ⟨m, hmm, e⟩ := List.mem_map.mp this
    have hf : m.fields.map Field.erase = m'.fields.map Field.erase := by
      have := congrArg Message.fields e
      exact this
    obtain ⟨hlen, hfs⟩ := h3 m hmm
    have hl : m.fields.length = m'.fields.length := by simpa using congrArg List.length hf
    refine ⟨by omega, fun f' hf' => ⟨?_, ?_⟩⟩
    · have : f'.erase ∈ m.fields.map Field.erase := by rw [hf]; exact List.mem_map_of_mem hf'
      obtain ⟨f, hff, e⟩ := List.mem_map.mp this
      rw [← fieldOptionsOk_erase, ← e, fieldOptionsOk_erase]
      exact (hfs f hff).1
    · obtain ⟨m0, hm0, rfl⟩ := sorted_message hm'
      exact hs'.fieldLinked (parse_fieldLinked h' hm0 (mem_sortByName.mp hf'))
  unfold output
  rw [generate_eq h1 h2 hl h3, generate_eq h1' h2' hl' h3', ← needs_core, ← fileCalls_core, ← hm, needs_core,
    fileCalls_core]
  have : ctxOf (sortTree t').options = ctxOf (sortTree t).options := by
    show ctxOf t'.options = ctxOf t.options
    rw [← ctxOf_erase, ← ho, ctxOf_erase]
  rw [this]

/-- The same schema, except for the order in which the fields of each message are declared (and for the line numbers
of options and the options of messages, which are not used). -/
def SameButFieldOrder (t t' : Tree) : Prop :=
  OptMap.erase t.options = OptMap.erase t'.options ∧
  t.messages.length = t'.messages.length ∧
  ∀ (i : Nat) (m m' : Message), t.messages[i]? = some m → t'.messages[i]? = some m' →
    m.name = m'.name ∧ m.package = m'.package ∧ (m.fields.map Field.erase).Perm (m'.fields.map Field.erase)

/-- The fields of every message have distinct names. -/
def DistinctNames (t : Tree) : Prop := ∀ m ∈ t.messages, (m.fields.map (·.name)).Nodup

theorem sorted_erase {l : List Field} (h : SortedByName l) : SortedByName (l.map Field.erase) := by
  unfold SortedByName at h ⊢
  rw [List.pairwise_map]
  exact h

theorem sorted_core {fs fs' : List Field} (hp : (fs.map Field.erase).Perm (fs'.map Field.erase))
    (hn : (fs.map (·.name)).Nodup) {s s' : List Field} (h : s.Perm fs) (hs : SortedByName s)
    (h' : s'.Perm fs') (hs' : SortedByName s') : s.map Field.erase = s'.map Field.erase := by
  refine sorted_unique ?_ (sorted_erase hs) (sorted_erase hs') ?_
  · exact (h.map _).trans (hp.trans (h'.map _).symm)
  · have e : (s.map Field.erase).map (·.name) = s.map (·.name) := by rw [List.map_map]; rfl
    rw [e]
    exact (h.map (·.name)).nodup_iff.mpr hn

/-- **C52.** Two accepted schemas that differ only in the order of the fields generate the same code, provided that the
names of the fields of each message are distinct. -/
theorem C52_same_code {N N' : Nat} {text text' : Bytes} {t t' : Tree} (h : parse N text = .ok t)
    (h' : parse N' text' = .ok t') (hn : DistinctNames t) (hs : SameButFieldOrder t t') (fileName : Bytes)
    (hok : (output fileName t).res = .ok ()) : output fileName t' = output fileName t := by
  refine output_congr h h' ?_ hs.1 fileName hok
  refine List.ext_getElem? fun i => ?_
  simp only [sortTree, List.getElem?_map]
  cases hm : t.messages[i]? with
  | none =>
    have hm' : t'.messages[i]? = none := by
      rw [List.getElem?_eq_none_iff] at hm ⊢
      rw [← hs.2.1]; exact hm
    rw [hm']
  | some m =>
    have hi : i < t.messages.length := (List.getElem?_eq_some_iff.mp hm).1
    obtain ⟨m', hm'⟩ : ∃ m', t'.messages[i]? = some m' := ⟨_, List.getElem?_eq_getElem (hs.2.1 ▸ hi)⟩
    rw [hm']
    obtain ⟨e1, e2, hp⟩ := hs.2.2 i m m' hm hm'
    simp only [Option.map_some, Option.some.injEq, core, Message.mk.injEq, and_true, e1, e2]
    exact sorted_core hp (hn m (List.mem_of_getElem? hm)) (sortByName_perm _) (sortByName_sorted _) (sortByName_perm _)
      (sortByName_sorted _)

/-- **C52.** Whatever permutation `std::sort` picks, it is the one of the model: there is only one that is sorted. -/
theorem C52_any_sort {fs s : List Field} (hn : (fs.map (·.name)).Nodup) (hp : s.Perm fs)
    (hs : SortedByName s) : s = sortByName fs :=
  sorted_unique (hp.trans (sortByName_perm fs).symm) hs (sortByName_sorted fs)
    ((hp.map (·.name)).nodup_iff.mpr hn)

/-- **C52.** The fields are in the order of their names. -/
theorem C52_sorted (t : Tree) : ∀ m ∈ (sortTree t).messages, m.fields.Pairwise fun a b => nameLt b.name a.name = false := by
  intro m hm
  obtain ⟨m', _, rfl⟩ := sorted_message hm
  exact sortByName_sorted _

/-- Two orders of the same fields. -/
def orderText1 : Bytes := b!"message M { int32 b = 1; string a = 2 [transient=true]; bool c = 3; }"
/-- … on several lines. -/
def orderText2 : Bytes := b!"message M {\n bool c = 3;\n string a = 2 [transient=true];\n int32 b = 1; }"

example : output b!"x" (treeOf (parse 100 orderText2)) = output b!"x" (treeOf (parse 100 orderText1)) := by
  have h1 : parse 100 orderText1 = .ok (treeOf (parse 100 orderText1)) := by decide +kernel
  have h2 : parse 100 orderText2 = .ok (treeOf (parse 100 orderText2)) := by decide +kernel
  refine C52_same_code h1 h2 ?_ ⟨?_, ?_, ?_⟩ b!"x" ?_
  · unfold DistinctNames; decide +kernel
  · decide +kernel
  · decide +kernel
  · intro i m m' hm hm'
    have e1 : (treeOf (parse 100 orderText1)).messages.length = 1 := by decide +kernel
    match i with
    | 0 =>
      have k : ∃ m m', (treeOf (parse 100 orderText1)).messages[0]? = some m ∧
          (treeOf (parse 100 orderText2)).messages[0]? = some m' ∧ m.name = m'.name ∧ m.package = m'.package ∧
          m.fields.map Field.erase = (m'.fields.map Field.erase).reverse := by
        refine ⟨(treeOf (parse 100 orderText1)).messages.headD ⟨[], [], [], []⟩,
          (treeOf (parse 100 orderText2)).messages.headD ⟨[], [], [], []⟩, ?_, ?_, ?_, ?_, ?_⟩ <;> decide +kernel
      obtain ⟨a, a', ha, ha', h3, h4, h5⟩ := k
      rw [hm] at ha; rw [hm'] at ha'
      cases ha; cases ha'
      exact ⟨h3, h4, h5 ▸ List.reverse_perm _⟩
    | i + 1 => rw [List.getElem?_eq_none (by omega)] at hm; cases hm
  · decide +kernel

/-- The parser accepts messages with two fields of the same name, so the hypothesis of `C52_same_code` is not
redundant (`std::sort` leaves the order of such fields open; the generated structure does not compile). -/
theorem C52_names_may_repeat : ∃ t, parse 100 b!"message M { int32 a = 1; bool a = 2; }" = .ok t ∧ ¬ DistinctNames t := by
  refine ⟨treeOf (parse 100 b!"message M { int32 a = 1; bool a = 2; }"), by decide +kernel, ?_⟩
  unfold DistinctNames
  decide +kernel

/-- **C52 (also C48).** The generated code does not depend on the layout of the schema: texts that differ only in white
space and comments generate the same code. -/
theorem C52_layout {N N' : Nat} {text text' : Bytes} {t t' : Tree} (h : parse N text = .ok t)
    (h' : parse N' text' = .ok t') (he : t.erase = t'.erase) (fileName : Bytes)
    (hok : (output fileName t).res = .ok ()) : output fileName t' = output fileName t := by
  have hmsgs : t.messages.map Message.erase = t'.messages.map Message.erase := congrArg Tree.messages he
  refine output_congr h h' ?_ (congrArg Tree.options he) fileName hok
  have hsort : ∀ fs : List Field, (sortByName fs).map Field.erase = sortByName (fs.map Field.erase) := by
    have hins : ∀ (f : Field) (l : List Field), (insertField f l).map Field.erase = insertField f.erase (l.map Field.erase) := by
      intro f l
      induction l with
      | nil => rfl
      | cons g l ih =>
        simp only [insertField, List.map_cons]
        show _ = if nameLt g.name f.name = true then _ else _
        split
        · simp only [List.map_cons, ih]
        · rfl
    intro fs
    induction fs with
    | nil => rfl
    | cons f fs ih =>
      simp only [sortByName, List.foldr_cons, List.map_cons] at ih ⊢
      rw [hins, ih]
  have key : ∀ m : Message, core { m with fields := sortByName m.fields } =
      core { m.erase with fields := sortByName m.erase.fields } := by
    intro m
    simp only [core, Message.erase, Message.mk.injEq, and_true]
    rw [← hsort, List.map_map]
    exact List.map_congr_left fun f _ => by simp [Field.erase, OptMap.erase, OptEntry.erase, Function.comp]
  have e : ∀ t : Tree, (sortTree t).messages.map core =
      (t.messages.map Message.erase).map fun m => core { m with fields := sortByName m.fields } := by
    intro t
    simp only [sortTree, List.map_map]
    exact List.map_congr_left fun m _ => key m
  rw [e, e, hmsgs]

end PG.Gen
