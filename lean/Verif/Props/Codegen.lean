import Verif.Proofs.CodegenLaws
import Verif.Proofs.CodegenText
/-!
# C74–C76: what the code generator makes of any specification

A program that brings its own specification (feature `from-spec`) gets types it has not
seen.  The statements are about every specification, given as a JSON document.
-/
set_option autoImplicit false
namespace Amqp.Codegen
open Encode

/-! ## C74: generated types read back what they write -/

/-- **C74.** A list type generated from any specification reads back what it writes, if its
code is not 0; what follows is left over. -/
theorem C74_list_partial {j : Json} {c : Compiled} (h : generate j = .ok (some c)) {l : CList}
    (hl : l ∈ c.lists) (hc : l.code ≠ 0) {L : TList} (hL : l.template = some L) (env : Env)
    (v : Struct L.fields) (hv : L.Good env v) (more : Bytes) :
    decode L.type.carrier env (L.type.enc v ++ more) = .ok (more, v) :=
  TList.round_trip ((template_code_ne_zero hL (compiled_code_lt h hl)).2 hc) hv more

/-- **C74.** The size a generated list type announces is the length of what it writes,
exactly if its code is between 1 and 255. -/
theorem C74_list_size_partial {j : Json} {c : Compiled} (h : generate j = .ok (some c)) {l : CList}
    (hl : l ∈ c.lists) {L : TList} (hL : l.template = some L) (v : Struct L.fields)
    (hv : StructSized L.fields v) :
    L.type.size v = (L.type.enc v).length ↔ 1 ≤ l.code ∧ l.code ≤ 255 := by
  rw [← template_code_toNat hL (compiled_code_lt h hl)]
  exact TList.size_iff hv

/-- **C74.** What is written for a list type is refused by every other list type of the
specification with a different code. -/
theorem C74_list_refused {j : Json} {c : Compiled} (h : generate j = .ok (some c)) {l m : CList}
    (hl : l ∈ c.lists) (hm : m ∈ c.lists) (hc : l.code ≠ 0) (hne : l.code ≠ m.code) {L M : TList}
    (hL : l.template = some L) (hM : m.template = some M) (env : Env) (v : Struct L.fields)
    (more : Bytes) :
    decode M.type.carrier env (L.type.enc v ++ more) =
      .err (.invalidDescriptor (.ulong (.ofNat l.code))) := by
  rw [← (template_code hL).1]
  refine TList.refused ((template_code_ne_zero hL (compiled_code_lt h hl)).2 hc) (fun e => hne ?_)
    more
  rw [← template_code_toNat hL (compiled_code_lt h hl),
    ← template_code_toNat hM (compiled_code_lt h hm), e]

/-- **C74.** A generated transfer takes what follows its fields as its body. -/
theorem C74_transfer_partial {j : Json} {c : Compiled} (h : generate j = .ok (some c)) {l : CList}
    (hl : l ∈ c.lists) (hc : l.code ≠ 0) {L : TList} (hL : l.template = some L) (env : Env)
    (v : Struct L.fields) (hv : L.Good env v) (more : Bytes) :
    L.decBodyF env FC.described ((L.enc v).tail ++ more) =
      .ok ([], (v, if more = [] then none else some (.Data ⟨more⟩))) :=
  TList.body_decode ((template_code_ne_zero hL (compiled_code_lt h hl)).2 hc) hv more

/-- **C74.** A generated enumeration over literals reads back the items it writes, and what
is none of its values is refused. -/
theorem C74_enum (e : CEnum) [DecidableEq e.ty.rust.carrier] {t : TEnum e.ty.rust.carrier}
    (_ : e.template = some t) (hd : t.values.Nodup) (env : Env) :
    (∀ (i : Fin t.values.length) (c : UInt8) (w more : Bytes),
      (∀ more, decode e.ty.rust.carrier env (Encode.enc (t.values[i]) ++ more) =
        .ok (more, t.values[i])) →
      t.enc i = c :: w → t.decF env c (w ++ more) = .ok (more, i)) ∧
    ∀ b, b ∉ t.values → t.tryFrom b = .err (.unknownEnumOption t.name) :=
  ⟨fun i c w more h hw => t.round_trip hd i h c w hw more, fun b hb => t.tryFrom_none b hb⟩

/-- **C74.** A generated enumeration of symbols reads back the items it writes. -/
theorem C74_symbols (e : CEnum) (hd : e.symbols.values.Nodup) (env : Env)
    (i : Fin e.symbols.values.length) (hl : (e.symbols.values[i]).str.bytes.length < 2 ^ 32) :
    ∃ c w, e.symbols.symbolEnc i = c :: w ∧
      ∀ more, e.symbols.decF env c (w ++ more) = .ok (more, i) :=
  symbol_round_trip e.symbols hd env i hl

/-- **C74.** The size announced for an item is the length of what is written, exactly if the
symbol is at most 255 bytes long. -/
theorem C74_symbols_size_partial {j : Json} {c : Compiled} (h : generate j = .ok (some c))
    {e : CEnum} (he : e ∈ c.enums) (i : Fin e.symbols.values.length) :
    e.symbols.symbolSize i = (e.symbols.symbolEnc i).length ↔
      (e.symbols.values[i]).str.bytes.length ≤ 255 := by
  obtain ⟨ts, d, _, h2, h3⟩ := generate_ok h
  exact symbol_size_iff h2 h3 he i

/-- **C74.** A generated union reads back what it writes, as the same option, if the codes of
its options are distinct and not 0. -/
theorem C74_union_partial {c : Compiled} {name : String} {os : List TOption}
    (_ : c.union name = some os) (hd : (os.map TOption.code).Nodup) (env : Env) (u : Union os)
    (hc : u.at.1.code ≠ 0) (hg : u.at.1.Good env u.at.2) :
    ∃ w, unionEnc os u = FC.described :: w ∧
      ∀ more, unionDecF os env FC.described (w ++ more) = .ok (more, u) :=
  union_round_trip hd u hc hg

/-! ### Where it fails -/

/-- A list type without fields. -/
def probe (name code : String) : RawType :=
  .described ⟨name, "composite", "list", some "outcome", ⟨"probe:" ++ name, code⟩, []⟩

/-- What the theorems above are about, in a small case. -/
example : generate (Spec.document [probe "first" "0x00000000:0x00000024"]) =
    .ok (some { lists := [⟨"First", 36, "probe:first", false, []⟩], restricted := [], enums := []
                unions := [], frame := [] }) := by decide +kernel

/-- **C74 fails.** A list type with the code 0 never reads back what it writes. -/
theorem C74_violated_zero : ∃ (j : Json) (c : Compiled) (l : CList) (L : TList),
    generate j = .ok (some c) ∧ l ∈ c.lists ∧ l.template = some L ∧
    ∀ (env : Env) (v : Struct L.fields) (more : Bytes),
      decode L.type.carrier env (L.type.enc v ++ more) = .err (.invalidFormatCode FC.ulong0) :=
  ⟨Spec.document [probe "first" "0x0:0x0"],
   { lists := [⟨"First", 0, "probe:first", false, []⟩], restricted := [], enums := []
     unions := [], frame := [] },
   ⟨"First", 0, "probe:first", false, []⟩, ⟨0, "probe:first", []⟩, by decide +kernel,
   List.mem_singleton.2 rfl, rfl, fun env v more => TList.code_zero rfl env v more⟩

/-- **C74 fails.** A list type with the code 256 announces 7 bytes less than it writes. -/
theorem C74_violated_size : ∃ (j : Json) (c : Compiled) (l : CList) (L : TList),
    generate j = .ok (some c) ∧ l ∈ c.lists ∧ l.template = some L ∧
    ∃ v : Struct L.fields, L.type.size v + 7 = (L.type.enc v).length :=
  ⟨Spec.document [probe "first" "0x0:0x100"],
   { lists := [⟨"First", 256, "probe:first", false, []⟩], restricted := [], enums := []
     unions := [], frame := [] },
   ⟨"First", 256, "probe:first", false, []⟩, ⟨256, "probe:first", []⟩, by decide +kernel,
   List.mem_singleton.2 rfl, rfl, (), by decide⟩

/-- Two options with the same code in different domains. -/
def twice : List TOption := [⟨Unit, fun env => (TList.mk 36 "probe:first" []).decInner env,
    (TList.mk 36 "probe:first" []).size, (TList.mk 36 "probe:first" []).enc, 36, "probe:first"⟩,
  ⟨Unit, fun env => (TList.mk 36 "probe:second" []).decInner env,
    (TList.mk 36 "probe:second" []).size, (TList.mk 36 "probe:second" []).enc, 36, "probe:second"⟩]

/-- **C74 fails.** The domain of a code is dropped, so that of two options with the same code
in different domains the second is read as the first. -/
theorem C74_violated_domain : ∃ (j : Json) (c : Compiled),
    generate j = .ok (some c) ∧ c.union "Outcome" = some twice ∧
    ∀ env : Env, unionDecF twice env FC.described ((unionEnc twice (.inr (.inl ()))).tail) =
      .ok ([], .inl ()) :=
  ⟨Spec.document [probe "first" "0x0:0x24", probe "second" "0x1:0x24"],
   { lists := [⟨"First", 36, "probe:first", false, []⟩, ⟨"Second", 36, "probe:second", false, []⟩]
     restricted := [], enums := []
     unions := [("Outcome", [("First", 36, "probe:first"), ("Second", 36, "probe:second")])]
     frame := [] }, by decide +kernel, rfl, fun _ => rfl⟩

/-- A list type with a mandatory, a defaulted and an optional field. -/
def report : CList := ⟨"ProbeReport", 0x90, "probe:report:list", false,
  [⟨"type_", .byteStr, .mandatory⟩, ⟨"weight", .u32, .default "7"⟩, ⟨"note", .symbol, .optional⟩]⟩

/-- The functions generated for it. -/
def reportList : TList := ⟨0x90, "probe:report:list", [.mandatory "type_" (.of ByteStr),
  .default Ty.u32.rust (7 : UInt32), .optional (.of Symbol)]⟩

/-- A value of it. -/
def reportValue : Struct reportList.fields := (RStr.lit "disk", (9 : UInt32), none, ())

example : report.template = some reportList := rfl
example (env : Env) : reportList.Good env reportValue := by
  refine ⟨⟨?_, ⟨?_, ?_⟩, (fun x h => by cases h), trivial⟩,
    ⟨(show _ = _ by decide +kernel), (show _ = _ by decide +kernel), (fun x h => by cases h), trivial⟩,
    by decide +kernel⟩
  · exact LawfulCodec.rt (α := ByteStr) env (RStr.lit "disk")
      (show _ < _ by decide +kernel)
  · exact LawfulCodec.rt (α := UInt32) env 9 trivial
  · show _ ≠ _; decide +kernel

/-! ## C75: the identifiers -/

/-- **C75.** The Rust type of a name of the specification is an identifier that begins with
an upper-case letter: the words, each with its first letter in upper case. -/
theorem C75_type_identifier (ws : List (List Char)) (h : ws ≠ []) (hw : ∀ w ∈ ws, Spec.Word w) :
    camelCase (Spec.hyphenated ws) = (ws.map Spec.capitalised).flatten ∧
      Spec.Identifier (camelCase (Spec.hyphenated ws)) ∧
      ∃ ch t, camelCase (Spec.hyphenated ws) = ch :: t ∧ Spec.Upper ch := by
  rw [camelCase_hyphenated hw]
  exact ⟨rfl, camel_identifier h hw⟩

/-- **C75.** The Rust name of a field is an identifier: the words joined by underscores, with
one more at the end for `type` and `return`. -/
theorem C75_field_identifier (ws : List (List Char)) (h : ws ≠ []) (hw : ∀ w ∈ ws, Spec.Word w) :
    snakeCase (Spec.hyphenated ws) = Spec.underscored ws ++
      (if Spec.hyphenated ws = "type".toList ∨ Spec.hyphenated ws = "return".toList then ['_']
        else []) ∧
      Spec.Identifier (snakeCase (Spec.hyphenated ws)) := by
  by_cases hr : Reserved (Spec.hyphenated ws)
  · have e : Spec.underscored ws = Spec.hyphenated ws := by
      match ws with
      | [] => rfl
      | [w] => rfl
      | w :: v :: ws =>
        exfalso
        have hm : '-' ∈ Spec.hyphenated (w :: v :: ws) := by simp [Spec.hyphenated]
        rcases hr with hr | hr <;> rw [hr] at hm <;> revert hm <;> decide
    have hr' : Spec.hyphenated ws = "type".toList ∨ Spec.hyphenated ws = "return".toList := hr
    rw [snakeCase_reserved hr, if_pos hr', e]
    refine ⟨rfl, ?_⟩
    rcases hr with hr | hr <;> rw [hr]
    · exact ⟨'t', "ype_".toList, rfl, Or.inl (by unfold Spec.Lower; decide), by
        unfold Spec.Lower Spec.Upper Spec.Digit; decide⟩
    · exact ⟨'r', "eturn_".toList, rfl, Or.inl (by unfold Spec.Lower; decide), by
        unfold Spec.Lower Spec.Upper Spec.Digit; decide⟩
  · have hr' : ¬ (Spec.hyphenated ws = "type".toList ∨ Spec.hyphenated ws = "return".toList) := hr
    rw [snakeCase_hyphenated hw hr, if_neg hr', List.append_nil]
    exact ⟨rfl, underscored_identifier h hw⟩

/-- **C75.** Different names give different Rust types. -/
theorem C75_types {s t : String} (hs : Spec.Name s.toList) (ht : Spec.Name t.toList) :
    camel s = camel t ↔ s = t := ⟨camel_inj hs ht, congrArg _⟩

/-- **C75.** Different names give different Rust fields. -/
theorem C75_fields {s t : String} (hs : Spec.Name s.toList) (ht : Spec.Name t.toList) :
    snake s = snake t ↔ s = t := ⟨snake_inj hs ht, congrArg _⟩

/-- **C75.** If the list types of a specification have different names, the generated structs
have different names; and if the fields of a list have different names, so do the fields of
its struct. -/
theorem C75_distinct {ts : List RawType} {c : Compiled}
    (h : generate (Spec.document ts) = .ok (some c)) :
    ((∀ r ∈ ts.filterMap Spec.list?, Spec.Name r.name.toList) →
      ((ts.filterMap Spec.list?).map (·.name)).Nodup → (c.lists.map (·.rust)).Nodup) ∧
    ((∀ r ∈ ts.filterMap Spec.list?, (∀ f ∈ r.field, Spec.Name f.name.toList) ∧
      (r.field.map (·.name)).Nodup) → ∀ l ∈ c.lists, (l.fields.map (·.name)).Nodup) := by
  obtain ⟨ts', d, h1, h2, h3⟩ := generate_ok h
  rw [readTypes_document] at h1
  injection h1 with h1
  subst h1
  have hl := compiled_lists h2 h3
  constructor
  · intro hn hd
    have : c.lists.map (·.rust) = ((ts.filterMap Spec.list?).map (·.name)).map camel := by
      have := congrArg (List.map Prod.fst) hl
      simpa [List.map_map, Function.comp_def, Spec.saysList] using this
    rw [this]
    refine nodup_map_of_inj (fun a ha b hb => ?_) hd
    obtain ⟨x, hx, rfl⟩ := List.mem_map.1 ha
    obtain ⟨y, hy, rfl⟩ := List.mem_map.1 hb
    exact camel_inj (hn x hx) (hn y hy)
  · intro hr l hlm
    have hmem := List.mem_map_of_mem (f := fun l : CList => (l.rust, l.name, Gen.ok l.code,
      l.transfer, l.fields.map fun f => (f.name, f.kind))) hlm
    rw [hl] at hmem
    obtain ⟨r, hrm, e⟩ := List.mem_map.1 hmem
    have e2 : r.field.map (fun f => (snake f.name, Spec.kind ts f)) =
        l.fields.map fun f => (f.name, f.kind) := congrArg (·.2.2.2.2) e
    have e3 : l.fields.map (·.name) = (r.field.map (·.name)).map snake := by
      have := congrArg (List.map Prod.fst) e2
      simpa [List.map_map, Function.comp_def] using this.symm
    rw [e3]
    refine nodup_map_of_inj (fun a ha b hb => ?_) (hr r hrm).2
    obtain ⟨x, hx, rfl⟩ := List.mem_map.1 ha
    obtain ⟨y, hy, rfl⟩ := List.mem_map.1 hb
    exact snake_inj ((hr r hrm).1 x hx) ((hr r hrm).1 y hy)

/-- **C75.** The functions of a type are named after the Rust type, with the words joined by
underscores again; different types have different functions, if no word but the last is a
single letter. -/
theorem C75_functions_partial {ws vs : List (List Char)} (hws : ws ≠ []) (hvs : vs ≠ [])
    (hw : ∀ w ∈ ws, Spec.Word w) (hv : ∀ v ∈ vs, Spec.Word v)
    (hl : ∀ w ∈ ws.dropLast, 2 ≤ w.length) (hm : ∀ v ∈ vs.dropLast, 2 ≤ v.length) :
    snakeCase (camelCase (Spec.hyphenated ws)) = Spec.underscored ws ∧
    (snakeCase (camelCase (Spec.hyphenated ws)) = snakeCase (camelCase (Spec.hyphenated vs)) →
      ws = vs) := by
  rw [snakeCase_camelCase hw hl, snakeCase_camelCase hv hm]
  exact ⟨rfl, underscored_injective hws hvs hw hv⟩

/-- The words of a name of the standard. -/
def policy : List (List Char) := ["terminus".toList, "expiry".toList, "policy".toList]

/-- The hypotheses hold of the names of the standard. -/
example : policy ≠ [] ∧ (∀ w ∈ policy, Spec.Word w) ∧ (∀ w ∈ policy.dropLast, 2 ≤ w.length) ∧
    Spec.hyphenated policy = "terminus-expiry-policy".toList := by
  refine ⟨by decide, ?_, by decide, by decide⟩
  intro w hw
  simp only [policy, List.mem_cons, List.not_mem_nil, or_false] at hw
  rcases hw with rfl | rfl | rfl
  · exact ⟨'t', "erminus".toList, rfl, by unfold Spec.Lower; decide, by
      unfold Spec.Lower Spec.Digit; decide⟩
  · exact ⟨'e', "xpiry".toList, rfl, by unfold Spec.Lower; decide, by
      unfold Spec.Lower Spec.Digit; decide⟩
  · exact ⟨'p', "olicy".toList, rfl, by unfold Spec.Lower; decide, by
      unfold Spec.Lower Spec.Digit; decide⟩

/-- A name of lower-case words. -/
theorem name_of_words {ws : List (List Char)} (h : ws ≠ [])
    (hw : ∀ w ∈ ws, ∃ ch t, w = ch :: t ∧ Spec.Lower ch ∧ ∀ c ∈ t, Spec.Lower c) :
    Spec.Name (Spec.hyphenated ws) :=
  ⟨ws, h, fun w hm => by
    obtain ⟨ch, t, e, h1, h2⟩ := hw w hm
    exact ⟨ch, t, e, h1, fun c hc => Or.inl (h2 c hc)⟩, rfl⟩

/-- **C75 fails.** Two different names whose functions have the same name: the generated file
does not compile. -/
theorem C75_violated_functions : ∃ s t : List Char, Spec.Name s ∧ Spec.Name t ∧ s ≠ t ∧
    snakeCase (camelCase s) = snakeCase (camelCase t) :=
  ⟨"x-link".toList, "xlink".toList,
   ⟨["x".toList, "link".toList], by decide, by
      intro w hw
      simp only [List.mem_cons, List.not_mem_nil, or_false] at hw
      rcases hw with rfl | rfl
      · exact ⟨'x', [], rfl, by unfold Spec.Lower; decide, by simp⟩
      · exact ⟨'l', "ink".toList, rfl, by unfold Spec.Lower; decide, by
          unfold Spec.Lower Spec.Digit; decide⟩, by decide⟩,
   ⟨["xlink".toList], by decide, by
      intro w hw
      simp only [List.mem_cons, List.not_mem_nil, or_false] at hw
      subst hw
      exact ⟨'x', "link".toList, rfl, by unfold Spec.Lower; decide, by
        unfold Spec.Lower Spec.Digit; decide⟩, by decide⟩,
   by decide, by decide⟩

/-- **C75 fails.** A field may be called like a keyword of Rust other than the two that are
provided for. -/
theorem C75_violated_keyword : ∃ s : List Char, Spec.Name s ∧ snakeCase s = "match".toList :=
  ⟨"match".toList, ⟨["match".toList], by decide, by
      intro w hw
      simp only [List.mem_cons, List.not_mem_nil, or_false] at hw
      subst hw
      exact ⟨'m', "atch".toList, rfl, by unfold Spec.Lower; decide, by
        unfold Spec.Lower Spec.Digit; decide⟩, by decide⟩, by decide⟩

/-! ## C76: nothing in the specification is lost or invented -/

/-- **C76.** The document that lists given types is read as these types. -/
theorem C76_read (ts : List RawType) : readTypes (Spec.document ts) = .ok ts :=
  readTypes_document ts

/-- **C76.** The generator stops exactly if the code of a described type cannot be read. -/
theorem C76_stops (ts : List RawType) :
    ((∀ t ∈ ts, Spec.Acceptable t) ↔ ∃ d, parse (Spec.document ts) = .ok d) ∧
    ((∃ t ∈ ts, ¬ Spec.Acceptable t) ↔ parse (Spec.document ts) = .abort) := by
  rw [parse_document]
  by_cases h : ∀ t ∈ ts, Spec.Acceptable t
  · obtain ⟨d, hd⟩ := from_good h
    refine ⟨⟨fun _ => ⟨d, hd⟩, fun _ => h⟩, ⟨fun ⟨t, ht, hn⟩ => absurd (h t ht) hn, fun e => ?_⟩⟩
    rw [hd] at e; cases e
  · have h' : ∃ t ∈ ts, ¬ Spec.Acceptable t := by
      refine Classical.byContradiction fun hn => h fun t ht => Classical.byContradiction fun ha => ?_
      exact hn ⟨t, ht, ha⟩
    have hb := from_bad h'
    refine ⟨⟨fun e => absurd e h, fun ⟨d, hd⟩ => ?_⟩, ⟨fun _ => hb, fun _ => h'⟩⟩
    rw [hb] at hd; cases hd

/-- **C76.** A code is read as the two numbers it stands for; numbers that do not fit 32 bits
stop the generator. -/
theorem C76_code (name : String) (k l domain code : Nat) :
    GDescriptor.from ⟨name, .ofList (Spec.hex k domain ++ ':' :: Spec.hex l code)⟩ =
      if domain < 2 ^ 32 ∧ code < 2 ^ 32 then .ok ⟨name, domain, code⟩ else .abort :=
  from_hex name k l domain code

/-- **C76.** Exactly these texts are read as codes: parts of `0x` and a hexadecimal number of
32 bits, in either case, with colons between them; the first is the domain, the second the
code. -/
theorem C76_code_iff (d : RawDescriptor) (g : GDescriptor) : GDescriptor.from d = .ok g ↔
    g.name = d.name ∧ Spec.Code g.domain g.code d.code.toList := from_iff

/-- **C76.** What a type provides are the items between the commas, without the spaces around
them; items without text are of no account. -/
theorem C76_provides {ps : List (List Char × List Char)} (h : ps ≠ [])
    (hp : ∀ p ∈ ps, Spec.Padded p.1 p.2 ∧ ',' ∉ p.1) :
    parseProvides (some (.ofList (Spec.joined ',' (ps.map Prod.fst)))) =
      ((ps.map Prod.snd).filter (· ≠ [])).map fun n => .ofList (camelCase n) :=
  parseProvides_joined h hp

example : Spec.Code 0 0x2A "0x0:0x2a".toList :=
  ⟨"0x0".toList, "0x2a".toList, [], ⟨by decide, "0".toList, hex_iff.2 (by decide +kernel), Or.inl rfl⟩,
    ⟨by decide, "2a".toList, hex_iff.2 (by decide +kernel), Or.inl rfl⟩, by simp, by decide⟩

example : Spec.joined ',' ["delivery-state".toList, " outcome".toList] =
    "delivery-state, outcome".toList ∧ Spec.Padded " outcome".toList "outcome".toList ∧
    parseProvides (some "delivery-state, outcome") = ["DeliveryState", "Outcome"] :=
  ⟨by decide, ⟨[' '], [], rfl, by decide, by decide, by decide, by decide⟩, by decide +kernel⟩

/-- **C76.** Every list type of the specification is generated, in order, with its name, the
name and code of its descriptor, and all its fields in order, each with its name and with the
treatment of an absent value that the specification demands; and nothing else. -/
theorem C76_lists {ts : List RawType} {c : Compiled}
    (h : generate (Spec.document ts) = .ok (some c)) :
    c.lists.map (fun l => (l.rust, l.name, Gen.ok l.code, l.transfer,
      l.fields.map fun f => (f.name, f.kind))) =
      (ts.filterMap Spec.list?).map (Spec.saysList ts) := by
  obtain ⟨ts', d, h1, h2, h3⟩ := generate_ok h
  rw [readTypes_document] at h1
  injection h1 with h1
  subst h1
  exact compiled_lists h2 h3

/-- **C76.** So is every described type with an underlying type, and every enumeration with
its items in order. -/
theorem C76_others {ts : List RawType} {c : Compiled}
    (h : generate (Spec.document ts) = .ok (some c)) :
    c.restricted.map (fun l => (l.rust, l.name, Gen.ok l.code)) =
      (ts.filterMap Spec.restricted?).map Spec.saysRestricted ∧
    c.enums.map (fun e => (e.rust, e.is_symbol, e.items)) = (ts.filterMap Spec.enum?).map Spec.saysEnum := by
  obtain ⟨ts', d, h1, h2, h3⟩ := generate_ok h
  rw [readTypes_document] at h1
  injection h1 with h1
  subst h1
  exact ⟨compiled_restricted h2 h3, compiled_enums h2 h3⟩

/-- **C76.** Every field has the type that the specification gives it, through any number of
aliases; so have enumerations and described types with an underlying type. -/
theorem C76_types {ts : List RawType} {c : Compiled}
    (h : generate (Spec.document ts) = .ok (some c)) :
    (∀ p ∈ (ts.filterMap Spec.list?).zip c.lists, ∀ q ∈ p.1.field.zip p.2.fields,
      Spec.StandsFor ts (Spec.typeOf q.1) q.2.ty) ∧
    (∀ p ∈ (ts.filterMap Spec.restricted?).zip c.restricted,
      Spec.StandsFor ts (Spec.named p.1.source) p.2.ty) ∧
    (∀ p ∈ (ts.filterMap Spec.enum?).zip c.enums,
      Spec.StandsFor ts (Spec.named p.1.source) p.2.ty) := by
  obtain ⟨ts', d, h1, h2, h3⟩ := generate_ok h
  rw [readTypes_document] at h1
  injection h1 with h1
  subst h1
  exact compiled_types h2 h3

/-- **C76.** A union is generated for a name exactly if at least two types provide it and one
of them has a code; its options are exactly the types that provide it, in order.  `Frame` is
left to the template. -/
theorem C76_unions {ts : List RawType} {c : Compiled}
    (h : generate (Spec.document ts) = .ok (some c)) :
    (c.unions.map Prod.fst).Nodup ∧ ∀ (name : String) (os : List (String × Nat × String)),
      (name, os) ∈ c.unions ↔
        name ≠ "Frame" ∧ os = (ts.flatMap (Spec.options name)).map GOption.entry ∧
        2 ≤ os.length ∧ ∃ o ∈ os, o.2.1 ≠ 0 := by
  obtain ⟨ts', d, h1, h2, h3⟩ := generate_ok h
  rw [readTypes_document] at h1
  injection h1 with h1
  subst h1
  exact ⟨compiled_unions_names h2 h3, compiled_unions h2 h3⟩

/-- A specification with a list type of three fields, an enumeration and another list. -/
def sample : List RawType := [
  .choice ⟨"level", "ubyte", none, [⟨"low", "0"⟩, ⟨"very-high", "1"⟩]⟩,
  .described ⟨"probe-report", "composite", "list", some "outcome, probe",
    ⟨"probe:report:list", "0x00000000:0x00000090"⟩,
    [⟨"type", "string", true, none, false, none⟩,
     ⟨"weight", "uint", false, some "7", false, none⟩,
     ⟨"note", "symbol", false, none, false, none⟩]⟩,
  probe "other" "0x00000000:0x00000091"]

/-- What is generated from it. -/
example : generate (Spec.document sample) = .ok (some {
    lists := [⟨"ProbeReport", 0x90, "probe:report:list", false, [⟨"type_", .byteStr, .mandatory⟩,
        ⟨"weight", .u32, .default "7"⟩, ⟨"note", .symbol, .optional⟩]⟩,
      ⟨"Other", 0x91, "probe:other", false, []⟩]
    restricted := []
    enums := [⟨"Level", .u8, false, [("Low", "0", 1), ("VeryHigh", "1", 1)]⟩]
    unions := [("Outcome", [("ProbeReport", 0x90, "probe:report:list"), ("Other", 0x91, "probe:other")])]
    frame := [] }) := by decide +kernel

end Amqp.Codegen
