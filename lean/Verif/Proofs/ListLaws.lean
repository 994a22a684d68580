import Verif.Proofs.Variant
import Verif.Protocol.Base
/-!
# Generic laws of enumerations, list types and described unions

Every list type of `src/protocol/definitions.rs` is an instance of one scheme:
a sequence of fields, each mandatory, optional or with a default.  The scheme
is described here (`Field`, `ListType`) and its laws are proved once.
-/
namespace Amqp
open Dec

/-! ### Shared helpers -/

theorem local_validateCode {α : Type} (fmt c : UInt8) {d : Dec α} (h : Local d) :
    Local (Amqp.validateCode fmt c d) := Local.ite (Local.fail _) h

theorem validateCode_self {α : Type} (c : UInt8) (d : Dec α) : validateCode c c d = d :=
  if_neg (fun h => h rfl)

theorem loc_decode {α : Type} [DecodeF α] [LawfulDec α] (env : Env) : Local (decode α env) :=
  local_decode fun fmt => LawfulDec.loc env fmt

theorem enc_ne_nil_of_head {α : Type} [Encode α] [NonNull α] (v : α) : enc v ≠ [] := by
  obtain ⟨c, w, h, _⟩ := NonNull.head v
  rw [h]; simp

/-! ### Enumerations -/

theorem ite_ok_elim {ε α : Type} {c P : Prop} [Decidable c] {x y : Res ε α} {e : α}
    (h1 : c → x = .ok e → P) (h2 : y = .ok e → P) (h : (if c then x else y) = .ok e) : P := by
  split at h
  · exact h1 ‹_› h
  · exact h2 h

theorem noPanic_ite {ε α : Type} {c : Prop} [Decidable c] {x y : Res ε α} (h1 : x.NoPanic)
    (h2 : y.NoPanic) : (if c then x else y).NoPanic := by split <;> assumption

theorem Symbol.eq_of_str {b : Symbol} {s : RStr} (h : b.str = s) : b = ⟨s⟩ := by
  cases b; cases h; rfl

/-- A restricted enumeration `E` over the base type `β`. -/
class EnumType (E : Type) (β : outParam Type) [Encode E] [DecodeF E] [Encode β] [DecodeF β] where
  base : E → β
  tryFrom : β → Res ParseError E
  decF_eq : ∀ env fmt, decF (α := E) env fmt = decodeEnum tryFrom env fmt
  tryFrom_base : ∀ e, tryFrom (base e) = .ok e
  base_of : ∀ b e, tryFrom b = .ok e → b = base e
  no_panic : ∀ b, (tryFrom b).NoPanic
  enc_eq : ∀ e, enc e = enc (base e)
  size_eq : ∀ e, size e = size (base e)

section
variable {E β : Type} [Encode E] [DecodeF E] [Encode β] [DecodeF β] [EnumType E β]

theorem enumLawfulEnc [LawfulEnc β] : LawfulEnc E where
  size_eq e := by rw [EnumType.size_eq, EnumType.enc_eq]; exact LawfulEnc.size_eq _

theorem enumNonNull [NonNull β] : NonNull E where
  head e := by rw [EnumType.enc_eq]; exact NonNull.head _

theorem enumLawfulDec [LawfulDec β] : LawfulDec E where
  loc env fmt := by
    rw [EnumType.decF_eq]
    refine (LawfulDec.loc env fmt).bind fun b => ?_
    cases EnumType.tryFrom (E := E) b with
    | ok a => exact Local.pure _
    | err e => exact Local.fail _
    | panic p => exact Local.abort _

theorem enumSafeDec [SafeDec β] : SafeDec E where
  safe env fmt := by
    rw [EnumType.decF_eq]
    refine (SafeDec.safe env fmt).bind fun b => ?_
    have := EnumType.no_panic (E := E) b
    cases h : EnumType.tryFrom (E := E) b with
    | ok a => exact Safe.pure _
    | err e => exact Safe.fail _
    | panic p => exact absurd h (this p)

theorem decode_enum (env : Env) :
    decode E env = (do
      let b ← decode β env
      match EnumType.tryFrom (E := E) b with
      | .ok a => pure a
      | .err e => Dec.fail e
      | .panic p => Dec.abort p) := by
  funext i
  cases i with
  | nil => rfl
  | cons f t =>
    show decF env f t = _
    rw [EnumType.decF_eq]
    rfl

theorem enumReads [HasWf β] [LawfulCodec β] (env : Env) (e : E)
    (h : wf env (EnumType.base e)) : Reads (decode E env) (enc e) e := by
  rw [EnumType.enc_eq, decode_enum]
  have := Reads.bind (LawfulCodec.rt env _ h)
    (f := fun b => match EnumType.tryFrom (E := E) b with
      | .ok a => pure a
      | .err e => Dec.fail e
      | .panic p => Dec.abort p) (w2 := []) (b := e) (by
        intro more
        simp only [EnumType.tryFrom_base]
        rfl)
  rw [List.append_nil] at this
  exact this

end

/-! ### Fields -/

/-- One field of a list type. -/
structure Field where
  T : Type
  size : T → Nat
  enc : T → Bytes
  wf : Env → T → Prop
  /-- the decoding step used by the list decoder -/
  get : Env → FieldDec T
  /-- the decoder of the field when it is present -/
  dec : Env → Dec T
  /-- the outcome when the field is absent -/
  missing : Res ParseError T
  get_zero : ∀ env i, get env (0, i) = match missing with
    | .ok a => .ok ((0, i), a)
    | .err e => .err e
    | .panic p => .panic p
  get_succ : ∀ env n i, get env (n + 1, i) = present (dec env) n i
  missing_ne : missing.NoPanic
  size_eq : ∀ v, size v = (enc v).length
  ne_nil : ∀ v, enc v ≠ []
  rt : ∀ env v, wf env v → Reads (dec env) (enc v) v
  loc : ∀ env, Local (dec env)
  null_eq : ∀ env a, missing = .ok a → Reads (dec env) [FC.null] a

theorem ne_nil_of_codec {α : Type} [Encode α] [DecodeF α] [HasWf α] [LawfulCodec α] {env : Env}
    {v : α} (h : wf env v) : enc v ≠ [] := by
  intro hn
  have := LawfulCodec.rt env v h []
  rw [hn] at this
  cases this

section
variable (α : Type) [Encode α] [DecodeF α] [LawfulEnc α] [LawfulDec α] [NonNull α]

omit [Encode α] [LawfulEnc α] [LawfulDec α] [NonNull α] in
theorem opt_null (env : Env) : Reads (decode (Option α) env) [FC.null] none := fun _ => rfl

/-- A mandatory field. -/
def Field.req (name : String) : Field where
  T := α
  size := Encode.size
  enc := Encode.enc
  wf env v := RoundTrips env v
  get env := fReq α env name
  dec env := decode α env
  missing := .err (.requiredFieldOmitted name)
  get_zero _ _ := rfl
  get_succ _ _ _ := rfl
  missing_ne _ h := by cases h
  size_eq := LawfulEnc.size_eq
  ne_nil v := enc_ne_nil_of_head v
  rt _ _ h := h
  loc := loc_decode
  null_eq _ _ h := by cases h

/-- An optional field. -/
def Field.opt : Field where
  T := Option α
  size := Encode.size
  enc := Encode.enc
  wf env v := RoundTrips env v
  get env := fOpt α env
  dec env := decode (Option α) env
  missing := .ok none
  get_zero _ _ := rfl
  get_succ _ _ _ := rfl
  missing_ne _ h := by cases h
  size_eq := LawfulEnc.size_eq
  ne_nil v := by
    cases v with
    | none => simp [Encode.enc, encNull]
    | some v => exact enc_ne_nil_of_head v
  rt _ _ h := h
  loc := loc_decode
  null_eq env a h := by injection h with h; subst h; exact opt_null α env

/-- A field with a default. -/
def Field.dflt (d : α) : Field where
  T := α
  size := Encode.size
  enc := Encode.enc
  wf env v := RoundTrips env v
  get env := fDef α env d
  dec env := (fun o => o.getD d) <$> decode (Option α) env
  missing := .ok d
  get_zero _ _ := rfl
  get_succ _ _ _ := rfl
  missing_ne _ h := by cases h
  size_eq := LawfulEnc.size_eq
  ne_nil v := enc_ne_nil_of_head v
  rt env v h := Reads.map (fun o : Option α => o.getD d) (roundTrips_some h)
  loc env := (loc_decode env).map _
  null_eq env a h := by
    injection h with h; subst h
    exact (opt_null α env).map fun o : Option α => o.getD d

end

/-! ### Field sequences -/

/-- The values of a sequence of fields. -/
def Tuple : List Field → Type
  | [] => Unit
  | f :: fs => f.T × Tuple fs

def getFields (env : Env) : (fs : List Field) → FieldDec (Tuple fs)
  | [] => pure ()
  | f :: fs => do
    let a ← f.get env
    let t ← getFields env fs
    pure (a, t)

def sizeFields : (fs : List Field) → Tuple fs → Nat
  | [], _ => 0
  | f :: fs, t => f.size t.1 + sizeFields fs t.2

def encFields : (fs : List Field) → Tuple fs → Bytes
  | [], _ => []
  | f :: fs, t => f.enc t.1 ++ encFields fs t.2

def wfFields (env : Env) : (fs : List Field) → Tuple fs → Prop
  | [], _ => True
  | f :: fs, t => f.wf env t.1 ∧ wfFields env fs t.2

/-- `t` is what an encoding without any of the fields `fs` stands for. -/
def AllMissing : (fs : List Field) → Tuple fs → Prop
  | [], _ => True
  | f :: fs, t => f.missing = .ok t.1 ∧ AllMissing fs t.2

/-- The bytes `w` holding `n` fields stand for the values `t`: each field is
read by its own decoder; fields beyond the `n`-th are absent; fields or bytes
beyond the known ones are ignored. -/
inductive FieldsWire (env : Env) : (fs : List Field) → Nat → Bytes → Tuple fs → Prop
  | extra (n : Nat) (w : Bytes) : FieldsWire env [] n w ()
  | absent {f : Field} {fs : List Field} {t : Tuple (f :: fs)} (w : Bytes)
      (h : AllMissing (f :: fs) t) : FieldsWire env (f :: fs) 0 w t
  | given {f : Field} {fs : List Field} {n : Nat} {u w : Bytes} {a : f.T} {t : Tuple fs}
      (hu : Reads (f.dec env) u a) (h : FieldsWire env fs n w t) :
      FieldsWire env (f :: fs) (n + 1) (u ++ w) (a, t)

theorem getFields_absent (env : Env) : ∀ (fs : List Field) (t : Tuple fs) (w : Bytes),
    AllMissing fs t → getFields env fs (0, w) = .ok ((0, w), t)
  | [], _, _, _ => rfl
  | f :: fs, (a, t), w, h => by
    have h1 : f.get env (0, w) = .ok ((0, w), a) := by
      rw [f.get_zero, h.1]
    simp only [getFields, FieldDec.run_bind, h1, getFields_absent env fs t w h.2]
    rfl

theorem FieldsWire.get {env : Env} {fs : List Field} {n : Nat} {w : Bytes} {t : Tuple fs}
    (h : FieldsWire env fs n w t) : ∃ s, getFields env fs (n, w) = .ok (s, t) := by
  induction h with
  | extra n w => exact ⟨_, rfl⟩
  | absent w h => exact ⟨_, getFields_absent env _ _ w h⟩
  | @given f fs n u w a t hu h ih =>
    obtain ⟨s, hs⟩ := ih
    refine ⟨s, ?_⟩
    have h1 : f.get env (n + 1, u ++ w) = .ok ((n, w), a) := by
      rw [f.get_succ, present, hu w]
    simp only [getFields, FieldDec.run_bind, h1, hs]
    rfl

theorem FieldsWire.of_get {env : Env} : ∀ {fs : List Field} {n : Nat} {w : Bytes} {t : Tuple fs}
    {s : Nat × Bytes}, getFields env fs (n, w) = .ok (s, t) → FieldsWire env fs n w t
  | [], n, w, (), _, _ => .extra n w
  | f :: fs, 0, w, (a, t), s, h => by
    simp only [getFields, FieldDec.run_bind, f.get_zero] at h
    cases hm : f.missing with
    | err e => rw [hm] at h; cases h
    | panic p => rw [hm] at h; cases h
    | ok b =>
      rw [hm] at h
      simp only at h
      cases hg : getFields env fs (0, w) with
      | err e => rw [hg] at h; cases h
      | panic p => rw [hg] at h; cases h
      | ok q =>
        obtain ⟨s', t'⟩ := q
        rw [hg] at h
        injection h with h; injection h with h1 h2; injection h2 with h2 h3
        subst h1 h2 h3
        have := FieldsWire.of_get hg
        refine .absent w ⟨hm, ?_⟩
        cases this with
        | extra => trivial
        | absent _ h => exact h
  | f :: fs, n + 1, w, (a, t), s, h => by
    simp only [getFields, FieldDec.run_bind, f.get_succ, present] at h
    cases hd : f.dec env w with
    | err e => rw [hd] at h; cases h
    | panic p => rw [hd] at h; cases h
    | ok q =>
      obtain ⟨r, b⟩ := q
      rw [hd] at h
      simp only at h
      cases hg : getFields env fs (n, r) with
      | err e => rw [hg] at h; cases h
      | panic p => rw [hg] at h; cases h
      | ok q =>
        obtain ⟨s', t'⟩ := q
        rw [hg] at h
        injection h with h; injection h with h1 h2; injection h2 with h2 h3
        subst h1 h2 h3
        obtain ⟨u, rfl, hu⟩ := f.loc env _ _ _ hd
        exact .given hu (FieldsWire.of_get hg)

theorem FieldsWire.ofValue {env : Env} : ∀ {fs : List Field} {t : Tuple fs}, wfFields env fs t →
    FieldsWire env fs fs.length (encFields fs t) t
  | [], (), _ => .extra _ _
  | f :: _, (_, _), h => .given (f.rt env _ h.1) (FieldsWire.ofValue h.2)

theorem encFields_length : ∀ (fs : List Field) (t : Tuple fs),
    sizeFields fs t = (encFields fs t).length
  | [], _ => rfl
  | f :: fs, t => by
    simp only [sizeFields, encFields, List.length_append, f.size_eq, encFields_length fs t.2]

theorem length_le_sizeFields : ∀ (fs : List Field) (t : Tuple fs),
    fs.length ≤ sizeFields fs t
  | [], _ => Nat.le_refl _
  | f :: fs, t => by
    have h1 := length_le_sizeFields fs t.2
    have h2 : 0 < (f.enc t.1).length := List.length_pos_iff.2 (f.ne_nil t.1)
    simp only [sizeFields, List.length_cons, f.size_eq]
    omega

/-! ### List types -/

/-- `fmt` is a list format code and the bytes `h` its header: `size` bytes of
list body holding `count` fields. -/
inductive ListHeaderWire : Bytes → Nat → Nat → Prop
  | list0 : ListHeaderWire [FC.list0] 0 0
  | list8 {size count : Nat} (hs : size + 1 < 256) (hc : count < 256) :
      ListHeaderWire [FC.list8, UInt8.ofNat (size + 1), UInt8.ofNat count] size count
  | list32 {size count : Nat} (hs : size + 4 < 2 ^ 32) (hc : count < 2 ^ 32) :
      ListHeaderWire (FC.list32 :: (beEnc 4 (size + 4) ++ beEnc 4 count)) size count

theorem ListHeaderWire.reads {h : Bytes} {size count : Nat} (hw : ListHeaderWire h size count)
    (env : Env) :
    Reads (formatCode >>= decodeListHeader env) h ⟨size, count⟩ := by
  cases hw with
  | list0 => exact fun _ => rfl
  | list8 hs hc => exact Reads.bind (w1 := [_]) (Reads.readU8 _) (reads_compound8 env hs hc)
  | list32 hs hc => exact Reads.bind (w1 := [_]) (Reads.readU8 _) (reads_compound32 env hs hc)

theorem local_listInner {α : Type} (env : Env) (fields : FieldDec α) :
    Local (listInner env fields) := by
  refine Local.readU8.bind fun _ => (Local.decodeListHeader _ _).bind fun h =>
    (Local.takeN _).bind fun body => ?_
  cases fields (h.count, body) with
  | ok p => exact Local.pure _
  | err e => exact Local.fail _
  | panic p => exact Local.abort _

/-- A list body is read exactly: header, then `size` bytes, of which the fields
need not use all. -/
theorem reads_listInner {α : Type} {env : Env} {fields : FieldDec α} {h w : Bytes} {count : Nat}
    {s : Nat × Bytes} {a : α} (hw : ListHeaderWire h w.length count)
    (hf : fields (count, w) = .ok (s, a)) : Reads (listInner env fields) (h ++ w) a := by
  have e : listInner env fields = (formatCode >>= decodeListHeader env) >>= fun header =>
      takeN header.size >>= fun body => match fields (header.count, body) with
        | .ok (_, a) => pure a
        | .err e => Dec.fail e
        | .panic p => Dec.abort p := by
    simp only [listInner, bind_assoc]
    rfl
  rw [e]
  refine Reads.bind (hw.reads env) ?_
  have := Reads.bind (Reads.takeN w rfl) (f := fun body => match fields (count, body) with
        | .ok (_, a) => pure a
        | .err e => Dec.fail e
        | .panic p => Dec.abort p) (w2 := []) (b := a) (by
          intro more; simp only [hf]; rfl)
  rw [List.append_nil] at this
  exact this

/-- The bytes of a descriptor selecting the numeric code or the symbolic name. -/
inductive DescriptorWire (code : UInt64) (name : String) : Bytes → Descriptor → Prop
  | small (h : code.toNat < 256) :
      DescriptorWire code name [FC.smallUlong, code.toUInt8] (.ulong code)
  | full : DescriptorWire code name (FC.ulong :: beEnc 8 code.toNat) (.ulong code)
  | sym8 (h : (RStr.lit name).bytes.length < 256) :
      DescriptorWire code name
        (FC.symbol8 :: UInt8.ofNat (RStr.lit name).bytes.length :: (RStr.lit name).bytes) (.sym name)
  | sym32 (h : (RStr.lit name).bytes.length < 2 ^ 32) :
      DescriptorWire code name
        (FC.symbol32 :: (beEnc 4 (RStr.lit name).bytes.length ++ (RStr.lit name).bytes)) (.sym name)

theorem DescriptorWire.reads {code : UInt64} {name : String} {w : Bytes} {d : Descriptor}
    (h : DescriptorWire code name w d) (env : Env) : Reads (decode Descriptor env) w d := by
  cases h with
  | small h =>
    have := ((Reads.readU8 code.toUInt8).map UInt8.toUInt64).map Descriptor.ulong
    have e : code.toUInt8.toUInt64 = code := by
      apply UInt64.toNat_inj.1
      simp; omega
    rw [e] at this
    exact reads_decode (fmt := FC.smallUlong) this
  | full =>
    have hlt := code.toNat_lt
    have := ((Reads.readBE (k := 8) (n := code.toNat) (by omega)).map UInt64.ofNat).map
      Descriptor.ulong
    have e : UInt64.ofNat code.toNat = code := by simp
    rw [e] at this
    exact reads_decode (fmt := FC.ulong) this
  | sym8 h =>
    have h1 := Reads.bind (Reads.readBytesU8 _ h) (Reads.fromUtf8 (RStr.lit name))
    rw [List.append_nil] at h1
    exact reads_decode (fmt := FC.symbol8) ((h1.map Symbol.mk).map Descriptor.symbol)
  | sym32 h =>
    have h1 := Reads.bind (Reads.readBytesU32 _ h) (Reads.fromUtf8 (RStr.lit name))
    rw [List.append_nil] at h1
    exact reads_decode (fmt := FC.symbol32) ((h1.map Symbol.mk).map Descriptor.symbol)

theorem DescriptorWire.eq {code : UInt64} {name : String} {w : Bytes} {d : Descriptor}
    (h : DescriptorWire code name w d) : d = .ulong code ∨ d = .sym name := by
  cases h <;> simp

/-- Does the descriptor select the type? -/
def Descriptor.selects (code : UInt64) (name : String) (d : Descriptor) : Bool :=
  match d with
  | .ulong val => val == code
  | .symbol sym => sym.str.bytes == (RStr.lit name).bytes

theorem RStr.ext' {a b : RStr} (h : a.bytes = b.bytes) : a = b := by
  cases a; cases b; cases h; rfl

theorem Descriptor.selects_iff {code : UInt64} {name : String} {d : Descriptor} :
    d.selects code name = true ↔ d = .ulong code ∨ d = .sym name := by
  cases d with
  | ulong v => simp [selects, Descriptor.sym]
  | symbol s =>
    obtain ⟨s⟩ := s
    simp only [selects, beq_iff_eq, Descriptor.sym, reduceCtorEq, false_or, Descriptor.symbol.injEq,
      Symbol.mk.injEq]
    exact ⟨RStr.ext', fun h => h ▸ rfl⟩

theorem describedAs_eq {α : Type} (env : Env) (fmt : UInt8) (code : UInt64) (name : String)
    (d : Dec α) : describedAs env fmt code name d = validateCode fmt FC.described
      (decode Descriptor env >>= fun x =>
        if !x.selects code name then Dec.fail (.invalidDescriptor x) else d) := rfl

theorem local_describedAs {α : Type} {env : Env} {fmt : UInt8} {code : UInt64} {name : String}
    {d : Dec α} (h : Local d) : Local (describedAs env fmt code name d) := by
  rw [describedAs_eq]
  exact local_validateCode _ _ ((loc_decode env).bind fun x => Local.ite (Local.fail _) h)

theorem reads_describedAs {α : Type} {env : Env} {code : UInt64} {name : String} {d : Dec α}
    {x : Descriptor} {u w : Bytes} {a : α} (hx : Reads (decode Descriptor env) u x)
    (hs : x.selects code name = true) (h : Reads d w a) :
    Reads (describedAs env FC.described code name d) (u ++ w) a := by
  rw [describedAs_eq, validateCode_self]
  refine Reads.bind hx ?_
  rw [hs]; exact h

/-- The scheme of a list type. -/
class ListType (α : Type) [Encode α] [DecodeF α] where
  code : UInt64
  name : String
  fields : List Field
  toT : α → Tuple fields
  ofT : Tuple fields → α
  ofT_toT : ∀ v, ofT (toT v) = v
  toT_ofT : ∀ t, toT (ofT t) = t
  code_pos : 0 < code.toNat
  code_lt : code.toNat < 256
  inner : Env → Dec α
  inner_eq : ∀ env, inner env = listInner env (ofT <$> getFields env fields)
  decF_eq : ∀ env fmt, decF env fmt = describedAs env fmt code name (inner env)
  size_eq' : ∀ v, size v = listSize (sizeFields fields (toT v))
  enc_eq' : ∀ v, enc v = listHdr code (sizeFields fields (toT v)) fields.length ++
    encFields fields (toT v)

section
variable {α : Type} [Encode α] [DecodeF α] [ListType α]
open ListType

theorem FieldDec.run_map {α β : Type} (f : α → β) (d : FieldDec α) (s : Nat × Bytes) :
    (f <$> d) s = match d s with
      | .ok (t, a) => .ok (t, f a)
      | .err e => .err e
      | .panic p => .panic p := by
  rw [map_eq_pure_bind, FieldDec.run_bind]; rfl

theorem local_inner (env : Env) : Local (inner (α := α) env) := by
  rw [inner_eq]; exact local_listInner _ _

theorem listLawfulDec : LawfulDec α where
  loc env fmt := by rw [decF_eq]; exact local_describedAs (local_inner env)

theorem enc_ulong_small {c : UInt64} (hpos : 0 < c.toNat) (hlt : c.toNat < 256) :
    enc (Descriptor.ulong c) = [FC.described, FC.smallUlong, c.toUInt8] := by
  have h0 : c ≠ 0 := by rintro rfl; simp at hpos
  have h1 : ¬ c.toNat > 255 := by omega
  simp only [Encode.enc, if_neg h0, if_neg h1]

theorem listLawfulEnc : LawfulEnc α where
  size_eq v := by
    rw [size_eq', enc_eq']
    have h1 := compoundHdr_length FC.list8 FC.list32 (sizeFields (fields α) (toT v))
      (fields α).length
    simp only [listSize, listHdr, List.length_append, ← encFields_length,
      enc_ulong_small (code_pos (α := α)) code_lt, List.length_cons, List.length_nil]
    unfold compoundSize at h1
    split at h1 <;> simp_all <;> omega

theorem listNonNull : NonNull α where
  head v := by
    rw [enc_eq', listHdr, enc_ulong_small (code_pos (α := α)) code_lt]
    exact ⟨FC.described, _, rfl, by decide⟩

/-- A value of a list type survives a round trip if its content fits the 32-bit
length field and its fields survive. -/
@[reducible] def listWf (α : Type) [Encode α] [DecodeF α] [ListType α] : HasWf α :=
  ⟨fun env v => sizeFields (fields α) (toT v) + 4 < 2 ^ 32 ∧ wfFields env (fields α) (toT v)⟩

theorem listHdrWire {n k : Nat} (hn : n + 4 < 2 ^ 32) (hk : k ≤ n) :
    ListHeaderWire (compoundHdr FC.list8 FC.list32 n k) n k := by
  unfold compoundHdr
  split
  · exact .list32 hn (by omega)
  · exact .list8 (by omega) (by omega)

/-- Master lemma: any wire form of a list body is read exactly. -/
theorem reads_inner {env : Env} {h w : Bytes} {count : Nat} {t : Tuple (fields α)}
    (hw : ListHeaderWire h w.length count) (hf : FieldsWire env (fields α) count w t) :
    Reads (inner env) (h ++ w) (ofT t) := by
  obtain ⟨s, hs⟩ := hf.get
  rw [inner_eq]
  refine reads_listInner hw (s := s) ?_
  rw [FieldDec.run_map, hs]

theorem reads_inner_value {env : Env} {v : α}
    (h : sizeFields (fields α) (toT v) + 4 < 2 ^ 32 ∧ wfFields env (fields α) (toT v)) :
    Reads (inner env) (compoundHdr FC.list8 FC.list32 (sizeFields (fields α) (toT v))
      (fields α).length ++ encFields (fields α) (toT v)) v := by
  have h1 := listHdrWire h.1 (length_le_sizeFields (fields α) (toT v))
  rw [encFields_length] at h1
  have := reads_inner h1 (FieldsWire.ofValue h.2)
  rw [ofT_toT, ← encFields_length] at this
  exact this

theorem reads_listType {env : Env} {x : Descriptor} {u h w : Bytes} {count : Nat}
    {t : Tuple (fields α)} (hx : Reads (decode Descriptor env) u x)
    (hs : x = .ulong (code α) ∨ x = .sym (name α))
    (hw : ListHeaderWire h w.length count) (hf : FieldsWire env (fields α) count w t) :
    Reads (decode α env) (FC.described :: (u ++ (h ++ w))) (ofT t) := by
  refine reads_decode ?_
  rw [decF_eq]
  exact reads_describedAs hx (Descriptor.selects_iff.2 hs) (reads_inner hw hf)

end

theorem reads_small_descriptor (env : Env) {c : UInt64} (hlt : c.toNat < 256) :
    Reads (decode Descriptor env) [FC.smallUlong, c.toUInt8] (.ulong c) :=
  (DescriptorWire.small (name := "") hlt).reads env

section
variable {α : Type} [Encode α] [DecodeF α] [ListType α]
open ListType

theorem listLawfulCodec [hw : HasWf α] (he : hw = listWf α) : LawfulCodec α where
  rt env v h := by
    subst he
    rw [enc_eq', listHdr, enc_ulong_small (code_pos (α := α)) code_lt]
    simp only [List.cons_append, List.nil_append]
    refine reads_decode ?_
    rw [decF_eq]
    have := reads_describedAs (code := code α) (name := name α)
      (reads_small_descriptor env (code_lt (α := α))) (by simp [Descriptor.selects])
      (reads_inner_value h)
    simpa only [List.cons_append, List.nil_append, List.append_assoc] using this

end

/-! ### Described unions -/

theorem reads_union {U α : Type} [DecodeF U] {env : Env} {disp : Descriptor → Dec U}
    (hU : decF (α := U) env FC.described = validateCode FC.described FC.described
      (decode Descriptor env >>= disp))
    {mk : α → U} {x : Descriptor} {d : Dec α} {u w : Bytes} {v : α}
    (hx : Reads (decode Descriptor env) u x) (hd : disp x = mk <$> d) (h : Reads d w v) :
    Reads (decode U env) (FC.described :: (u ++ w)) (mk v) := by
  refine reads_decode ?_
  rw [hU, validateCode_self]
  refine Reads.bind hx ?_
  rw [hd]
  exact h.map mk

theorem reads_union_list {U α : Type} [DecodeF U] [Encode α] [DecodeF α] [ListType α]
    {env : Env} (mk : α → U) (disp : Descriptor → Dec U) (v : α)
    (h : sizeFields (ListType.fields α) (ListType.toT v) + 4 < 2 ^ 32 ∧
      wfFields env (ListType.fields α) (ListType.toT v))
    (hU : decF (α := U) env FC.described = validateCode FC.described FC.described
      (decode Descriptor env >>= disp))
    (hd : disp (.ulong (ListType.code α)) = mk <$> ListType.inner env) :
    Reads (decode U env) (enc v) (mk v) := by
  rw [ListType.enc_eq', listHdr, enc_ulong_small (ListType.code_pos (α := α)) ListType.code_lt]
  have := reads_union hU (reads_small_descriptor env (ListType.code_lt (α := α))) hd
    (reads_inner_value h)
  simpa only [List.cons_append, List.nil_append, List.append_assoc] using this

theorem reads_union_restricted {U α : Type} [DecodeF U] [Encode α] [DecodeF α] [HasWf α]
    [LawfulCodec α] {env : Env} (mk : α → U) (disp : Descriptor → Dec U) (c : UInt64)
    (hc : 0 < c.toNat ∧ c.toNat < 256) (v : α) (h : wf env v)
    (hU : decF (α := U) env FC.described = validateCode FC.described FC.described
      (decode Descriptor env >>= disp))
    (hd : disp (.ulong c) = mk <$> decode α env) :
    Reads (decode U env) (enc (Descriptor.ulong c) ++ enc v) (mk v) := by
  rw [enc_ulong_small hc.1 hc.2]
  exact reads_union hU (reads_small_descriptor env hc.2) hd (LawfulCodec.rt env v h)

theorem restricted_size {α : Type} [Encode α] [LawfulEnc α] (c : UInt64)
    (hc : 0 < c.toNat ∧ c.toNat < 256) (v : α) :
    3 + size v = (enc (Descriptor.ulong c) ++ enc v).length := by
  rw [enc_ulong_small hc.1 hc.2, LawfulEnc.size_eq]
  simp; omega

end Amqp
