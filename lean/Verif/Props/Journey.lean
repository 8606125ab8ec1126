import Verif.Props.Program
import Verif.Props.Code
import Verif.Props.Calls
import Verif.Props.Driver
/-
C99: from the schema to the object that is read back, everything on the way the text of a C++ function that is executed: `main` of
main.cc, the classes of the file that it prints, `serialize` and `deserialize` of json.hh.
-/
set_option autoImplicit false
namespace PG.Cxx.Throw
open PG.Proto PG.Gen PG.Cxx PG.Cxx.Tools PG.Cpp

/-- Objects of the type survive `serialize` and `deserialize` as they are in json.hh. -/
def Survives (ser des : Fun) (σ : Bool) (ty : Ty) : Prop :=
  ∀ (rf : Bytes → Tz → ty.Den → Res ty.Den) (n : Nat) (params q : Option Params) (v : ty.Den),
    ty.Writable (fun b => b ≠ 0) (params.getD {}).ensureAscii v → ty.NoNulls v → ty.isNull v = false →
    ty.Faithful (params.getD {}).serializeNull v →
    ∃ text args q' left, (∀ m inp, ser.run (entryLib σ (typeCodec ty m rf)) n [.dom .sink, paramsArg params] ⟨v, inp, []⟩ =
        some (.bool true, args, ⟨v, inp, text⟩)) ∧
      des.run (entryLib σ (typeCodec ty (fuelFor text) rf)) n [.dom .source, paramsArg q] ⟨ty.new, IStream.open' text, []⟩ =
        some (.bool true, [.dom .source, paramsArg q'], ⟨v, left, []⟩)

/-- Both functions of json.hh, for a type whose objects survive in the model. -/
theorem survives (σ : Bool) {ty : Ty} (h : RoundTrips ty) : Survives serFun deserFun σ ty := by
  intro rf n params q v h1 h2 h3 h4
  obtain ⟨hr, p, hd⟩ := h params q v h1 h2 h3 h4
  obtain ⟨f, hf, hs⟩ := (C92_serialize σ ty rf).1
  obtain ⟨g, hg, hg'⟩ := (C92_deserialize σ ty rf).1
  rw [serFun_text] at hf
  cases hf
  rw [deserFun_text] at hg
  cases hg
  refine ⟨(serialize ty params v).out, [.dom .sink, paramsArg (serialize ty params v).params], p,
    (ty.read (fuelFor (serialize ty params v).out) (Tz.open' (IStream.open' (serialize ty params v).out) (ctxParams q).err) ty.new).2.1.inp,
    fun m inp => ?_, ?_⟩
  · rw [hs, hr]
    rfl
  · have := hg' n (fuelFor (serialize ty params v).out) q ⟨ty.new, IStream.open' (serialize ty params v).out, []⟩
    rw [this]
    show Option.map _ (deserializeFrom ty (fuelFor (serialize ty params v).out) _ q ty.new) = _
    rw [show deserializeFrom ty (fuelFor (serialize ty params v).out) (IStream.open' (serialize ty params v).out) q ty.new = _ from hd]
    rfl

/-- What the model's program does with a schema that it accepts. -/
theorem work_accepted {rt : Runtime} {N : Nat} {w : Gen.World} {i fi full text : Bytes} {out : Option Bytes}
    {content : Bytes → Option Bytes} {t : Tree} (h1 : w.realpath i = some full) (h2 : (content fi).getD [] = text)
    (h3 : parse N text = .ok t) (h4 : Acceptable N text) :
    (output full t).res = .ok () ∧ work rt N w i fi out content = deliver w content out (some 0) (textOf rt (output full t).calls) [] := by
  obtain ⟨t', ht, ha⟩ := h4
  rw [h3] at ht
  cases ht
  have hok := (output_ok_iff h3 full).mpr ha
  refine ⟨hok, ?_⟩
  rcases work_cases rt N w i fi out content with ⟨h, e⟩ | ⟨full', h, ⟨t', ht', ⟨hr, e⟩ | ⟨x, hr, e⟩⟩ | ⟨x, hx, e⟩ | ⟨hx, e⟩⟩
  · rw [h1] at h; cases h
  · rw [h1] at h; cases h
    rw [h2, h3] at ht'; cases ht'
    exact e
  · rw [h1] at h; cases h
    rw [h2, h3] at ht'; cases ht'
    rw [hok] at hr; cases hr
  · rw [h2, h3] at hx; cases hx
  · rw [h2, h3] at hx; cases hx

/-- The classes that are printed. -/
theorem printed_classes (σ : Bool) {N : Nat} {text full : Bytes} {t : Tree} (h1 : parse N text = .ok t) (h2 : 10 ∉ full)
    (h3 : (output full t).res = .ok ()) (h4 : Regular t) :
    ∀ m ∈ (sortTree t).messages, ∃ ty, HasClass (textOf shipped (output full t).calls) m ty ∧ Survives serFun deserFun σ ty := by
  intro m hm
  obtain ⟨cs, hc, _, hall⟩ := C85_classes h1 h2 h3 h4.distinct h4.literal h4.bytes
  obtain ⟨ty, hty, hcl⟩ := hall m hm
  obtain ⟨cs', hc', hall'⟩ := C56_round_trip h1 h3 h4
  rw [hc] at hc'
  cases hc'
  obtain ⟨m', hm', rfl⟩ := sorted_message hm
  obtain ⟨ty', hty', hrt⟩ := hall' m' hm'
  rw [show className { m' with fields := sortByName m'.fields } = className m' from rfl, hty'] at hty
  cases hty
  exact ⟨_, hcl, survives σ hrt⟩

/-- C99: the program is executed with the name of a schema that it accepts and that is regular (C56); there is room for what it
prints.  It ends with status 0 and complains about nothing; what it prints contains for every message a class whose functions,
executed, are those of a type (C85), and the objects of that type survive `serialize` and `deserialize`, executed (C92). -/
theorem C99_to_stdout (σ : Bool) : ∃ f less ser des, withLambda 60 (mainText 45 92) = some (f, less) ∧
    Fun.of [] 60 (slice (jsonLines.map splice) 88 100) = some ser ∧ Fun.of [] 60 (slice (jsonLines.map splice) 74 87) = some des ∧
    ∀ (n N : Nat) (w : Gen.World) (p i fi full text : Bytes) (t : Tree), N < n → N < 18446744073709551616 →
      w.file i = some fi → w.canRead fi = true → w.content fi = some text → w.realpath i = some full → 10 ∉ full →
      parse N text = .ok t → Acceptable N text → Regular t → w.outRoom = none →
      ∃ e, Tools.ended w (run (driverLib σ shipped N w) n f [.int .i32 2, .arr [.str p, .str i]] (Driven.begin w)) = some e ∧
        e.status = some 0 ∧ e.stderr = [] ∧ e.content = w.content ∧
        ∀ m ∈ (sortTree t).messages, ∃ ty, HasClass e.stdout m ty ∧ Survives ser des σ ty := by
  obtain ⟨f, less, hf, _, hm⟩ := C97_main σ
  refine ⟨f, less, serFun, deserFun, hf, serFun_text, deserFun_text, ?_⟩
  intro n N w p i fi full text t hn hN h1 h2 h3 h4 h5 h6 h7 h8 h9
  obtain ⟨hok, hw⟩ := work_accepted (rt := shipped) (w := w) (i := i) (fi := fi) (out := none) (content := w.content) h4
    (by rw [h3]; rfl) h6 h7
  have he : Gen.main shipped N w [i] = deliver w w.content none (some 0) (textOf shipped (output full t).calls) [] := by
    unfold Gen.main
    simp only
    rw [(openIn_iff w i fi).mpr ⟨h1, h2, text, h3⟩]
    exact hw
  have hr := (hm n shipped N w p [i] hn hN).1 0 (by rw [he]; rfl)
  rw [he] at hr
  refine ⟨_, hr, rfl, rfl, rfl, ?_⟩
  show ∀ m ∈ (sortTree t).messages, ∃ ty, HasClass (fit w.outRoom (textOf shipped (output full t).calls)) m ty ∧ _
  rw [h9]
  exact printed_classes σ h6 h5 hok h8

/-- C99: the same with the name of a file to write, which is another one than that of the schema. -/
theorem C99_to_file (σ : Bool) : ∃ f less ser des, withLambda 60 (mainText 45 92) = some (f, less) ∧
    Fun.of [] 60 (slice (jsonLines.map splice) 88 100) = some ser ∧ Fun.of [] 60 (slice (jsonLines.map splice) 74 87) = some des ∧
    ∀ (n N : Nat) (w : Gen.World) (p i fi full text o fo : Bytes) (t : Tree), N < n → N < 18446744073709551616 →
      w.file i = some fi → w.canRead fi = true → w.content fi = some text → w.realpath i = some full → 10 ∉ full →
      w.file o = some fo → w.canWrite fo = true → fo ≠ fi →
      parse N text = .ok t → Acceptable N text → Regular t → w.room fo = none →
      ∃ e header, Tools.ended w (run (driverLib σ shipped N w) n f [.int .i32 3, .arr [.str p, .str i, .str o]] (Driven.begin w)) = some e ∧
        e.status = some 0 ∧ e.stderr = [] ∧ e.stdout = [] ∧ e.content fo = some header ∧ (∀ g, g ≠ fo → e.content g = w.content g) ∧
        ∀ m ∈ (sortTree t).messages, ∃ ty, HasClass header m ty ∧ Survives ser des σ ty := by
  obtain ⟨f, less, hf, _, hm⟩ := C97_main σ
  refine ⟨f, less, serFun, deserFun, hf, serFun_text, deserFun_text, ?_⟩
  intro n N w p i fi full text o fo t hn hN h1 h2 h3 h4 h5 ho hw' hne h6 h7 h8 h9
  obtain ⟨hok, hw⟩ := work_accepted (rt := shipped) (w := w) (i := i) (fi := fi) (out := some fo) (content := put w.content fo []) h4
    (by unfold put; rw [if_neg hne.symm, h3]; rfl) h6 h7
  have he : Gen.main shipped N w [i, o] =
      deliver w (put w.content fo []) (some fo) (some 0) (textOf shipped (output full t).calls) [] := by
    unfold Gen.main
    simp only
    rw [(openIn_iff w i fi).mpr ⟨h1, h2, text, h3⟩]
    simp only
    rw [(openOut_iff w o fo).mpr ⟨ho, hw'⟩]
    exact hw
  have hr := (hm n shipped N w p [i, o] hn hN).1 0 (by rw [he]; rfl)
  rw [he] at hr
  refine ⟨_, textOf shipped (output full t).calls, hr, rfl, rfl, rfl, ?_, ?_, printed_classes σ h6 h5 hok h8⟩
  · show put _ fo (fit (w.room fo) _) fo = _
    rw [h9]
    simp [put, fit]
  · intro g hg
    show put (put w.content fo []) fo _ g = _
    simp [put, hg]

/-- A file system with the shop (C56). -/
def shopWorld : Gen.World where
  file := some
  content := fun f => if f = b!"shop.proto" then some shopText else none
  canRead := fun _ => true
  canWrite := fun _ => true
  realpath := fun p => some (b!"/" ++ p)
  room := fun _ => none
  outRoom := none

/-- The class of an order in the file that the program writes for the shop. -/
example : ∃ f less, withLambda 60 (mainText 45 92) = some (f, less) ∧
    ∃ e header, Tools.ended shopWorld (run (driverLib true shipped 500 shopWorld) 501 f
      [.int .i32 3, .arr [.str b!"protogen", .str b!"shop.proto", .str b!"shop.hh"]] (Driven.begin shopWorld)) = some e ∧
    e.content b!"shop.hh" = some header ∧
    ∃ m ∈ (sortTree shopTree).messages, m.name = b!"Order" ∧ ∃ ty, HasClass header m ty ∧ Survives serFun deserFun true ty := by
  obtain ⟨f, less, ser, des, h1, h2, h3, h⟩ := C99_to_file true
  rw [serFun_text] at h2
  cases h2
  rw [deserFun_text] at h3
  cases h3
  have ha : Acceptable 500 shopText := ⟨shopTree, shop_parse, (output_ok_iff shop_parse b!"shop.proto").mp shop_ok⟩
  obtain ⟨e, header, he, _, _, _, hc, _, hm⟩ := h 501 500 shopWorld b!"protogen" b!"shop.proto" b!"shop.proto" b!"/shop.proto" shopText
    b!"shop.hh" b!"shop.hh" shopTree (by decide) (by decide) rfl rfl (by decide +kernel) (by decide +kernel) (by decide) rfl rfl
    (by decide) shop_parse ha shop_regular rfl
  refine ⟨f, less, h1, e, header, he, hc, ?_⟩
  obtain ⟨m, hm', hn⟩ : ∃ m ∈ (sortTree shopTree).messages, m.name = b!"Order" := by decide +kernel
  exact ⟨m, hm', hn, hm m hm'⟩

end PG.Cxx.Throw
