import Verif.Proofs.CodegenExtended
/-!
# C91: specifications that grow

Two programs have types generated from two versions of a specification; the newer version
appends fields to a list type, items to an enumeration or options to a union.
-/
set_option autoImplicit false
namespace Amqp.Codegen
open Dec Encode

/-- **C91.** If a newer version of a list type has the same code and appends fields, then the
functions generated for it are those of the older version with fields appended. -/
theorem C91_extended {l m : CList} {added : List CField} {L M : TList}
    (hc : m.code = l.code) (hf : m.fields = l.fields ++ added) (hL : l.template = some L)
    (hM : m.template = some M) :
    ∃ gs, added.mapM CField.template = some gs ∧ M = L.extend m.name gs := by
  unfold CList.template at hL hM
  obtain ⟨fs, h1, rfl⟩ := Option.map_eq_some_iff.1 hL
  obtain ⟨ms, h2, rfl⟩ := Option.map_eq_some_iff.1 hM
  rw [hf] at h2
  obtain ⟨gs, h3, h4⟩ := mapM_append_some h1 h2
  refine ⟨gs, h3, ?_⟩
  simp only [TList.extend, h4, hc]

/-- **C91.** What the newer version writes, the older version reads: it gets the fields it
knows, ignores the added ones, and leaves exactly what follows. -/
theorem C91_new_to_old {j : Json} {c : Compiled} (h : generate j = .ok (some c)) {l m : CList}
    (hl : l ∈ c.lists) (hc : l.code ≠ 0) {L : TList} (hL : l.template = some L)
    {name : String} {gs : List TField} (_ : m.template = some (L.extend name gs)) (env : Env)
    (v : Struct (L.fields ++ gs)) (hv : (L.extend name gs).Good env v) (more : Bytes) :
    decode L.type.carrier env ((L.extend name gs).type.enc v ++ more) = .ok (more, v.known) := by
  exact (TList.decode_enc (M := L.extend name gs)
    ((template_code_ne_zero hL (compiled_code_lt h hl)).2 hc) rfl env v more).trans
    (TList.known_ok hv more)

/-- **C91.** What the older version writes, the newer version reads: the known fields as
written, and of the added fields optional ones as absent and others as their defaults.  If
one of the added fields is mandatory, the message is refused with the name of the first such
field. -/
theorem C91_old_to_new {j : Json} {c : Compiled} (h : generate j = .ok (some c)) {l m : CList}
    (hl : l ∈ c.lists) (hc : l.code ≠ 0) {L : TList} (hL : l.template = some L)
    {name : String} {gs : List TField} (_ : m.template = some (L.extend name gs)) (env : Env)
    (v : Struct L.fields) (hv : L.Good env v) (more : Bytes) :
    decode (L.extend name gs).type.carrier env (L.type.enc v ++ more) =
      match leftOut gs with
      | .ok a => .ok (more, v.plus a)
      | .error n => .err (.requiredFieldOmitted n) := by
  have h0 : (L.extend name gs).code ≠ 0 :=
    (template_code_ne_zero hL (compiled_code_lt h hl)).2 hc
  refine (TList.decode_enc (L := L.extend name gs) (M := L) h0 rfl env v more).trans ?_
  cases ha : leftOut gs with
  | ok a => exact TList.plus_ok hv ha more
  | error n => exact TList.plus_err hv ha more

/-- **C91.** So with transfers, whose body is what follows. -/
theorem C91_transfer {j : Json} {c : Compiled} (h : generate j = .ok (some c)) {l m : CList}
    (hl : l ∈ c.lists) (hc : l.code ≠ 0) {L : TList} (hL : l.template = some L)
    {name : String} {gs : List TField} (_ : m.template = some (L.extend name gs)) (env : Env)
    (more : Bytes) :
    (∀ v, (L.extend name gs).Good env v →
      L.decBodyF env FC.described (((L.extend name gs).enc v).tail ++ more) =
        .ok ([], (Struct.known v, if more = [] then none else some (.Data ⟨more⟩)))) ∧
    ∀ v a, L.Good env v → leftOut gs = .ok a →
      (L.extend name gs).decBodyF env FC.described ((L.enc v).tail ++ more) =
        .ok ([], (Struct.plus v a, if more = [] then none else some (.Data ⟨more⟩))) := by
  have h0 : L.code ≠ 0 := (template_code_ne_zero hL (compiled_code_lt h hl)).2 hc
  constructor
  · intro v hv
    rw [TList.enc_eq]
    simp only [List.tail_cons, List.append_assoc]
    rw [TList.decBodyF, describedAs_eq, validateCode_self]
    refine bind_eq_ok.2 ⟨_, _, reads_code env h0 _, ?_⟩
    have := TList.decBodyInner_ok (TList.known_ok hv) more
    rw [List.append_assoc] at this
    simpa [Descriptor.selects, TList.extend] using this
  · intro v a hv ha
    rw [TList.enc_eq]
    simp only [List.tail_cons, List.append_assoc]
    rw [TList.decBodyF, describedAs_eq, validateCode_self]
    refine bind_eq_ok.2 ⟨_, _, reads_code env h0 _, ?_⟩
    have := TList.decBodyInner_ok (TList.plus_ok (name := name) hv ha) more
    rw [List.append_assoc] at this
    simpa [Descriptor.selects, TList.extend] using this

/-! ## Enumerations -/

/-- **C91.** If an enumeration gets more items, the values it had keep their positions. -/
theorem C91_enum_extended (e : CEnum) (added : List (String × String × Nat))
    {t u : TEnum e.ty.rust.carrier} (ht : e.template = some t)
    (hu : (e.extend added).template = some u) : ∃ more, u.values = t.values ++ more := by
  unfold CEnum.template at ht hu
  obtain ⟨vs, h1, rfl⟩ := Option.map_eq_some_iff.1 ht
  obtain ⟨us, h2, rfl⟩ := Option.map_eq_some_iff.1 hu
  obtain ⟨gs, _, h4⟩ := mapM_append_some (l := e.items) (m := added) h1 h2
  exact ⟨gs, h4⟩

/-- **C91.** The newer version of an enumeration reads what the older one writes as the item
at the same position; the older version reads of the newer one just the items it knows, and
refuses the others as unknown. -/
theorem C91_enum (e : CEnum) (added : List (String × String × Nat))
    [DecidableEq e.ty.rust.carrier] {t u : TEnum e.ty.rust.carrier} (ht : e.template = some t)
    (hu : (e.extend added).template = some u) (hd : u.values.Nodup) (env : Env) :
    (∀ (i : Fin t.values.length) (c : UInt8) (w more : Bytes),
      (∀ more, decode e.ty.rust.carrier env (Encode.enc (t.values[i]) ++ more) =
        .ok (more, t.values[i])) →
      t.enc i = c :: w →
      ∃ k : Fin u.values.length, k.1 = i.1 ∧ u.decF env c (w ++ more) = .ok (more, k)) ∧
    ∀ (k : Fin u.values.length) (c : UInt8) (w more : Bytes),
      (∀ more, decode e.ty.rust.carrier env (Encode.enc (u.values[k]) ++ more) =
        .ok (more, u.values[k])) →
      u.enc k = c :: w →
      if h : k.1 < t.values.length then t.decF env c (w ++ more) = .ok (more, ⟨k.1, h⟩)
      else t.decF env c (w ++ more) = .err (.unknownEnumOption t.name) := by
  obtain ⟨vs, hv⟩ := C91_enum_extended e added ht hu
  exact ⟨fun i c w more hr hw => t.extended_old hv hd hr hw more,
    fun k c w more hr hw => t.extended_new hv hd hr hw more⟩

/-- **C91.** So with enumerations of symbols. -/
theorem C91_symbols (e : CEnum) (added : List (String × String × Nat))
    (hd : (e.extend added).symbols.values.Nodup) (env : Env) :
    (∀ (i : Fin e.symbols.values.length) (c : UInt8) (w more : Bytes),
      (e.symbols.values[i]).str.bytes.length < 2 ^ 32 → e.symbols.symbolEnc i = c :: w →
      ∃ k : Fin (e.extend added).symbols.values.length, k.1 = i.1 ∧
        (e.extend added).symbols.decF env c (w ++ more) = .ok (more, k)) ∧
    ∀ (k : Fin (e.extend added).symbols.values.length) (c : UInt8) (w more : Bytes),
      ((e.extend added).symbols.values[k]).str.bytes.length < 2 ^ 32 →
      (e.extend added).symbols.symbolEnc k = c :: w →
      if h : k.1 < e.symbols.values.length then
        e.symbols.decF env c (w ++ more) = .ok (more, ⟨k.1, h⟩)
      else e.symbols.decF env c (w ++ more) = .err (.unknownEnumOption e.rust) := by
  have hv : (e.extend added).symbols.values =
      e.symbols.values ++ added.map fun i => (⟨.lit i.2.1⟩ : Symbol) := List.map_append
  exact ⟨fun i c w more hl hw => e.symbols.extended_old hv hd
      (LawfulCodec.rt (α := Symbol) env _ hl) hw more,
    fun k c w more hl hw => e.symbols.extended_new hv hd
      (LawfulCodec.rt (α := Symbol) env _ hl) hw more⟩

/-! ## Unions -/

/-- **C91.** If a union gets more options, with codes of their own, either version writes the
options both know in the same way and reads what the other one writes as the same option. -/
theorem C91_union_known {c : Compiled} {name : String} {os ps : List TOption}
    (_ : c.union name = some (os ++ ps)) (hd : ((os ++ ps).map TOption.code).Nodup) (env : Env)
    (u : Union os) (hc : u.at.1.code ≠ 0) (hg : u.at.1.Good env u.at.2) :
    ∃ w, unionEnc os u = FC.described :: w ∧ unionEnc (os ++ ps) u.widen = FC.described :: w ∧
      ∀ more, unionDecF (os ++ ps) env FC.described (w ++ more) = .ok (more, u.widen) ∧
        unionDecF os env FC.described (w ++ more) = .ok (more, u) := by
  have h1 : (u.widen : Union (os ++ ps)).at = u.at := Union.at_widen u
  obtain ⟨w, h2, h3⟩ := union_round_trip hd (u.widen : Union (os ++ ps)) (env := env)
    (by rw [h1]; exact hc) (by rw [h1]; exact hg)
  have hd' : (os.map TOption.code).Nodup := by
    rw [List.map_append, List.nodup_append] at hd; exact hd.1
  obtain ⟨w', h4, h5⟩ := union_round_trip hd' u hc hg
  have h6 := (unionEnc_widen (ps := ps) u).symm.trans h2
  obtain rfl : w' = w := by rw [h4] at h6; injection h6
  exact ⟨w', h4, h2, fun more => ⟨h3 more, h5 more⟩⟩

/-- **C91.** The older version refuses the added options by their descriptor. -/
theorem C91_union_added {c : Compiled} {name : String} {os ps : List TOption}
    (_ : c.union name = some os) (hd : ((os ++ ps).map TOption.code).Nodup) (env : Env)
    (u : Union ps) (hc : u.at.1.code ≠ 0) (hg : u.at.1.Good env u.at.2) :
    ∃ w, unionEnc (os ++ ps) u.added = FC.described :: w ∧
      ∀ more, unionDecF os env FC.described (w ++ more) =
        .err (.invalidDescriptor (.ulong u.at.1.code)) := by
  obtain ⟨w, h1, _⟩ := hg
  refine ⟨Encode.enc u.at.1.code ++ w, ?_, fun more => ?_⟩
  · rw [unionEnc_eq, Union.at_added, h1, enc_descriptor_code]; rfl
  · rw [unionDecF, validateCode_self, List.append_assoc, run_bind, reads_code env hc _]
    refine dispatch_unknown (fun hm => ?_) _
    rw [List.map_append, List.nodup_append] at hd
    exact hd.2.2 _ hm _ (List.mem_map_of_mem (Union.at_mem u)) rfl

/-! ## A case -/

/-- The fields of a list type, which the next version appends to. -/
def noteFields : List RawField := [⟨"text", "string", true, none, false, none⟩]

/-- The fields the next version appends. -/
def noteAdded : List RawField :=
  [⟨"weight", "uint", false, some "7", false, none⟩, ⟨"topic", "symbol", false, none, false, none⟩]

/-- A specification with one list type. -/
def note (fields : List RawField) : Json := Spec.document [.described ⟨"probe-note", "composite",
  "list", none, ⟨"probe:note:list", "0x00000000:0x00000090"⟩, fields⟩]

/-- What is generated from it. -/
def noteList (fields : List CField) : CList :=
  ⟨"ProbeNote", 0x90, "probe:note:list", false, fields⟩

/-- The functions of the first version. -/
def noteOld : TList := ⟨0x90, "probe:note:list", [.mandatory "text" (.of ByteStr)]⟩

/-- The fields appended, as the template has them. -/
def noteNew : List TField := [.default Ty.u32.rust (7 : UInt32), .optional (.of Symbol)]

example : generate (note noteFields) = .ok (some
      { lists := [noteList [⟨"text", .byteStr, .mandatory⟩]]
        restricted := [], enums := [], unions := [], frame := [] }) ∧
    generate (note (noteFields ++ noteAdded)) = .ok (some
      { lists := [noteList ([⟨"text", .byteStr, .mandatory⟩] ++
          [⟨"weight", .u32, .default "7"⟩, ⟨"topic", .symbol, .optional⟩])]
        restricted := [], enums := [], unions := [], frame := [] }) := by
  constructor <;> decide +kernel

example : (noteList [⟨"text", .byteStr, .mandatory⟩]).template = some noteOld ∧
    (noteList ([⟨"text", .byteStr, .mandatory⟩] ++
      [⟨"weight", .u32, .default "7"⟩, ⟨"topic", .symbol, .optional⟩])).template =
      some (noteOld.extend "probe:note:list" noteNew) := ⟨rfl, rfl⟩

/-- The newer version reads `"hi"` with the weight 7 and no topic. -/
example : leftOut noteNew = .ok ((7 : UInt32), none, ()) := rfl

/-- With a mandatory field appended, it would be refused. -/
example : leftOut (noteNew ++ [.mandatory "author" (.of Symbol)]) = .error "author" := rfl

/-- The bytes: the older version ignores the weight 9. -/
example (env : Env) : decode noteOld.type.carrier env
    ((noteOld.extend "probe:note:list" noteNew).type.enc
      ((RStr.lit "hi", (9 : UInt32), none, ()) : Struct (noteOld.fields ++ noteNew)) ++ [1, 2]) =
    .ok ([1, 2], (RStr.lit "hi", ())) := by
  have h : (noteOld.extend "probe:note:list" noteNew).Good env
      ((RStr.lit "hi", (9 : UInt32), none, ()) : Struct (noteOld.fields ++ noteNew)) := by
    refine ⟨⟨?_, ⟨?_, ?_⟩, (fun x h => by cases h), trivial⟩,
      ⟨(show _ = _ by decide +kernel), (show _ = _ by decide +kernel),
        (fun x h => by cases h), trivial⟩, by decide +kernel⟩
    · exact LawfulCodec.rt (α := ByteStr) env (RStr.lit "hi") (show _ < _ by decide +kernel)
    · exact LawfulCodec.rt (α := UInt32) env 9 trivial
    · show _ ≠ _; decide +kernel
  exact C91_new_to_old (j := note noteFields) (l := noteList [⟨"text", .byteStr, .mandatory⟩])
    (m := noteList ([⟨"text", .byteStr, .mandatory⟩] ++
      [⟨"weight", .u32, .default "7"⟩, ⟨"topic", .symbol, .optional⟩]))
    (c := { lists := [noteList [⟨"text", .byteStr, .mandatory⟩]], restricted := [], enums := []
            unions := [], frame := [] })
    (by decide +kernel) (List.mem_singleton.2 rfl) (by decide) rfl rfl env _ h [1, 2]

/-- An enumeration of symbols and one over numbers. -/
def colours : CEnum := ⟨"Colour", .symbol, true, [("Red", "red", 3), ("Blue", "blue", 4)]⟩
def levels : CEnum := ⟨"Level", .u8, false, [("Low", "0", 1), ("High", "1", 1)]⟩

example : (colours.extend [("Green", "green", 5)]).symbols.values.Nodup := by decide +kernel

example : ∃ t u : TEnum UInt8, levels.template = some t ∧
    (levels.extend [("Urgent", "2", 1)]).template = some u ∧ u.values = [0, 1, 2] ∧
    u.values.Nodup ∧ t.values = [0, 1] :=
  ⟨⟨"Level", [0, 1], [1, 1]⟩, ⟨"Level", [0, 1, 2], [1, 1, 1]⟩, rfl, rfl, rfl, by decide, rfl⟩

/-- Two options, the second of which is added. -/
example : (([noteOld.option] ++ [(TList.mk 0x91 "probe:mark:list" []).option]).map
    TOption.code).Nodup := by decide

end Amqp.Codegen
