import Verif.Proofs.CodegenParse
import Verif.Proofs.CodegenList
import Verif.Proofs.CodegenNames
/-!
# Laws of what is generated from any specification
-/
set_option autoImplicit false
namespace Amqp.Codegen
open Dec Encode

theorem utf8ByteSize_eq (s : String) : s.utf8ByteSize = (RStr.lit s).bytes.length := by
  conv => lhs; rw [← String.ofList_toList (s := s)]
  rw [← String.size_toByteArray]
  show (s.toList.utf8Encode).size = (utf8 s.toList).length
  unfold List.utf8Encode utf8
  simp

theorem template_code {l : CList} {L : TList} (h : l.template = some L) :
    L.code = .ofNat l.code ∧ L.name = l.name := by
  unfold CList.template at h
  obtain ⟨fs, _, rfl⟩ := Option.map_eq_some_iff.1 h
  exact ⟨rfl, rfl⟩

theorem template_code_toNat {l : CList} {L : TList} (h : l.template = some L)
    (hl : l.code < 2 ^ 32) : L.code.toNat = l.code := by
  rw [(template_code h).1, UInt64.toNat_ofNat']
  exact Nat.mod_eq_of_lt (by omega)

theorem template_code_ne_zero {l : CList} {L : TList} (h : l.template = some L)
    (hl : l.code < 2 ^ 32) : L.code ≠ 0 ↔ l.code ≠ 0 := by
  rw [← template_code_toNat h hl, ne_eq, ne_eq, ← UInt64.toNat_inj]
  exact Iff.rfl

/-- What is written for one list is refused by another with a different code. -/
theorem TList.refused {L M : TList} {env : Env} {v : Struct L.fields} (hc : L.code ≠ 0)
    (hne : L.code ≠ M.code) (more : Bytes) :
    decode M.type.carrier env (L.enc v ++ more) = .err (.invalidDescriptor (.ulong L.code)) := by
  rw [enc_eq]
  show M.decF env FC.described (Amqp.enc L.code ++ _ ++ more) = _
  rw [TList.decF, describedAs_eq, validateCode_self, List.append_assoc, run_bind,
    reads_code env hc _]
  simp [Descriptor.selects, hne]
  rfl

theorem symbols_item {c : CEnum} (i : Fin c.symbols.values.length) :
    ∃ x ∈ c.items, (c.symbols.values[i]) = ⟨.lit x.2.1⟩ ∧ c.symbols.lens.getD i 0 = x.2.2 := by
  have hi : i.1 < c.items.length := by
    have := i.2
    simp only [CEnum.symbols, List.length_map] at this
    exact this
  refine ⟨c.items[i.1], List.getElem_mem hi, ?_, ?_⟩
  · show (c.items.map fun i => (⟨.lit i.2.1⟩ : Symbol))[i.1]'(by simpa using hi) = _
    rw [List.getElem_map]
  · simp [CEnum.symbols, hi]

theorem compiled_lens {ts : List RawType} {d : Definitions} {c : Compiled}
    (h : Definitions.from ts = .ok d) (hc : d.compile = some c) {e : CEnum} (he : e ∈ c.enums)
    {x : String × String × Nat} (hx : x ∈ e.items) : x.2.2 = x.2.1.utf8ByteSize := by
  have h1 := compiled_enums h hc
  have h2 : (e.rust, e.is_symbol, e.items) ∈ (ts.filterMap Spec.enum?).map Spec.saysEnum := by
    rw [← h1]; exact List.mem_map_of_mem (f := fun e : CEnum => (e.rust, e.is_symbol, e.items)) he
  obtain ⟨r, _, hr⟩ := List.mem_map.1 h2
  have h3 : e.items = r.choice.map fun i => (camel i.name, i.value, i.value.utf8ByteSize) :=
    (congrArg (·.2.2) hr).symm
  rw [h3] at hx
  obtain ⟨i, _, rfl⟩ := List.mem_map.1 hx
  rfl

theorem symbol_size_iff {ts : List RawType} {d : Definitions} {c : Compiled}
    (h : Definitions.from ts = .ok d) (hc : d.compile = some c) {e : CEnum} (he : e ∈ c.enums)
    (i : Fin e.symbols.values.length) :
    e.symbols.symbolSize i = (e.symbols.symbolEnc i).length ↔
      (e.symbols.values[i]).str.bytes.length ≤ 255 := by
  obtain ⟨x, hx, h1, h2⟩ := symbols_item i
  have h3 := compiled_lens h hc he hx
  unfold TEnum.symbolSize TEnum.symbolEnc encStaticSymbol
  rw [varEnc_length, h1, h2, h3, utf8ByteSize_eq]
  simp only [varSize]
  constructor
  · intro h
    split at h <;> omega
  · intro h
    split <;> omega

theorem symbol_round_trip (e : TEnum Symbol) (hd : e.values.Nodup) (env : Env)
    (i : Fin e.values.length) (hl : (e.values[i]).str.bytes.length < 2 ^ 32) :
    ∃ c w, e.symbolEnc i = c :: w ∧ ∀ more, e.decF env c (w ++ more) = .ok (more, i) := by
  have hr : ∀ more, decode Symbol env (Encode.enc (e.values[i]) ++ more) = .ok (more, e.values[i]) :=
    LawfulCodec.rt env (e.values[i]) hl
  cases he : (Encode.enc (e.values[i]) : Bytes) with
  | nil =>
    have := hr []
    rw [he] at this
    cases this
  | cons c w => exact ⟨c, w, he, fun more => e.round_trip hd i hr c w he more⟩

/-! ## Names -/

theorem nodup_map_of_inj {α β : Type} {f : α → β} : ∀ {l : List α},
    (∀ a ∈ l, ∀ b ∈ l, f a = f b → a = b) → l.Nodup → (l.map f).Nodup
  | [], _, _ => List.nodup_nil
  | a :: l, h, hn => by
    rw [List.nodup_cons] at hn
    rw [List.map_cons, List.nodup_cons]
    refine ⟨fun hm => ?_, nodup_map_of_inj (fun x hx y hy => h x (List.mem_cons_of_mem _ hx) y
      (List.mem_cons_of_mem _ hy)) hn.2⟩
    obtain ⟨b, hb, e⟩ := List.mem_map.1 hm
    exact hn.1 (h b (List.mem_cons_of_mem _ hb) a List.mem_cons_self e ▸ hb)

theorem camel_inj {s t : String} (hs : Spec.Name s.toList) (ht : Spec.Name t.toList)
    (h : camel s = camel t) : s = t := by
  have : camelCase s.toList = camelCase t.toList := by
    have := congrArg String.toList h
    simpa [camel] using this
  have := camelCase_injective hs ht this
  exact String.toList_inj.1 this

theorem snake_inj {s t : String} (hs : Spec.Name s.toList) (ht : Spec.Name t.toList)
    (h : snake s = snake t) : s = t := by
  have : snakeCase s.toList = snakeCase t.toList := by
    have := congrArg String.toList h
    simpa [snake] using this
  have := snakeCase_injective hs ht this
  exact String.toList_inj.1 this

end Amqp.Codegen
