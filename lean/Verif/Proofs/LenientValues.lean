import Verif.Proofs.Lenient
import Verif.Proofs.StandardRead
/-!
# What is read: scalars, variants and typed maps

Support for C72.
-/
set_option autoImplicit false
namespace Amqp
open Dec Lenient
open Standard (Rep)

variable {env : Env}

/-! ## Scalars -/

theorem accepts_decides {α : Type} [DecodeF α] [LawfulDec α] {L : Rep α} (h : Decides α L) :
    Accepts α env L := accepts_of fun a b => h env b a

theorem accepts_bool : Accepts Bool env Lenient.boolean := accepts_of fun a b => by
  rw [means_bool]
  constructor
  · rintro (rfl | ⟨x, rfl, rfl⟩)
    · exact .short a
    · exact .byte x
  · intro h
    cases h with
    | short => exact .inl rfl
    | byte x => exact .inr ⟨x, rfl, rfl⟩

theorem accepts_symbol : Accepts Symbol env Lenient.symbol := accepts_of fun a b => by
  rw [means_symbol]
  constructor
  · rintro ⟨c, w, l, hs, hl, rfl⟩; exact .mk hs hl
  · rintro ⟨hs, hl⟩; exact ⟨_, _, _, hs, hl, rfl⟩

theorem takes_utcTimestamp (secs : Int) (nanos : Nat) :
    Takes (utcTimestamp secs nanos) fun t b => b = [] ∧ t.secs = secs ∧ t.nanos = nanos := by
  intro i r t
  unfold utcTimestamp
  by_cases h : dtOk secs nanos = true
  · rw [dif_pos h]
    constructor
    · intro hi
      obtain ⟨rfl, rfl⟩ := pure_cases hi
      exact ⟨[], rfl, rfl, rfl, rfl⟩
    · rintro ⟨_, rfl, rfl, rfl, rfl⟩; rfl
  · rw [dif_neg h]
    constructor
    · intro hi; cases hi
    · rintro ⟨_, _, _, rfl, rfl⟩; exact absurd t.ok h

theorem takes_millis (m : Int) : Takes (datetimeFromMillis m) fun t b => b = [] ∧
    ((m ≤ -1000 ∧ t.secs * 1000000000 + t.nanos = m * 1000000 ∧ 0 < t.nanos ∧
        t.nanos ≤ 1000000000) ∨
     (-1000 < m ∧ t.secs * 1000000000 + t.nanos = m.natAbs * 1000000 ∧ t.nanos < 1000000000)) := by
  unfold datetimeFromMillis
  have h1 := Int.mul_tdiv_add_tmod m 1000
  have h2 : (0 ≤ m → 0 ≤ Int.tmod m 1000) := fun h => Int.tmod_nonneg _ h
  have h3 := Int.tmod_lt_of_pos m (b := 1000) (by decide)
  have h4 : -1000 < Int.tmod m 1000 := Int.lt_tmod_of_pos m (by decide)
  have h5 : m ≤ 0 → Int.tmod m 1000 ≤ 0 := fun h => by
    have g := Int.tmod_nonneg (a := -m) 1000 (by omega)
    rw [Int.neg_tmod] at g; omega
  generalize Int.tdiv m 1000 = s at *
  generalize Int.tmod m 1000 = q at *
  by_cases hs : s < 0
  · simp only [hs, if_true]
    refine (takes_utcTimestamp _ _).congr fun t b => ⟨?_, ?_⟩
    · rintro ⟨rfl, e1, e2⟩; exact ⟨rfl, .inl (by omega)⟩
    · rintro ⟨rfl, h | h⟩
      · exact ⟨rfl, by omega, by omega⟩
      · omega
  · simp only [hs, if_false]
    refine (takes_utcTimestamp _ _).congr fun t b => ⟨?_, ?_⟩
    · rintro ⟨rfl, e1, e2⟩; exact ⟨rfl, .inr (by omega)⟩
    · rintro ⟨rfl, h | h⟩
      · omega
      · exact ⟨rfl, by omega, by omega⟩

theorem accepts_timestamp : Accepts DateTime env Lenient.timestamp := by
  intro i r t
  constructor
  · intro h
    obtain ⟨c, i', rfl, h1⟩ := decode_ok h
    obtain ⟨rfl, h2⟩ := validateCode_ok h1
    obtain ⟨r', n, h3, h4⟩ := bind_eq_ok.1 h2
    obtain ⟨b, rfl, hb⟩ := (takes_readBE 8 _ _ _).1 h3
    obtain ⟨_, rfl, rfl, h5⟩ := (takes_millis _ _ _ _).1 h4
    have hn := hb.snum64
    refine ⟨0x83 :: b, rfl, ?_⟩
    rcases h5 with ⟨g1, g2, g3, g4⟩ | ⟨g1, g2, g3⟩
    · exact .before hn g1 g2 g3 g4
    · exact .after hn g1 g2 g3
  · have key : ∀ (b : Bytes) (m : Int), SNum 8 b m →
        (datetimeFromMillis m r = .ok (r, t)) → decode DateTime env (0x83 :: b ++ r) = .ok (r, t) := by
      intro b m hb h
      obtain ⟨k, hk, e⟩ := hb.num
      have h1 : (UInt64.ofNat k).toNat = k := by
        rw [UInt64.toNat_ofNat']; exact Nat.mod_eq_of_lt hk.lt
      have h2 : (UInt64.ofNat k).toInt64.toInt = m := by rw [toInt64_cond, h1, e]
      show (readBE 8 >>= fun n => datetimeFromMillis (UInt64.ofNat n).toInt64.toInt) (b ++ r) = _
      rw [bind_ok (hk.reads r), h2, h]
    rintro ⟨b, rfl, hb⟩
    cases hb with
    | before hb g1 g2 g3 g4 =>
      exact key _ _ hb ((takes_millis _ r r t).2 ⟨[], rfl, rfl, .inl ⟨g1, g2, g3, g4⟩⟩)
    | after hb g1 g2 g3 =>
      exact key _ _ hb ((takes_millis _ r r t).2 ⟨[], rfl, rfl, .inr ⟨g1, g2, g3⟩⟩)

theorem accepts_descriptor : Accepts Descriptor env Lenient.descriptor := by
  intro i r d
  have hu : Accepts UInt64 env fun n => Prim (.ulong n) := accepts_decides decides_u64
  constructor
  · intro h
    obtain ⟨c, i', rfl, h1⟩ := decode_ok h
    have ul : ∀ {c : UInt8}, c ≠ 0x44 → (Descriptor.ulong <$> decF env c) i' = .ok (r, d) →
        ∃ b, c :: i' = b ++ r ∧ Lenient.descriptor d b := by
      intro c hc h2
      obtain ⟨n, h3, rfl⟩ := map_eq_ok.1 h2
      obtain ⟨b, e, hb⟩ := (hu (c :: i') r n).1 h3
      refine ⟨b, e, .ulong hb ?_⟩
      rintro rfl
      injection e with e _
      exact hc e
    have sy : ∀ {c : UInt8}, (Descriptor.symbol <$> decF env c) i' = .ok (r, d) →
        ∃ b, c :: i' = b ++ r ∧ Lenient.descriptor d b := by
      intro c h2
      obtain ⟨s, h3, rfl⟩ := map_eq_ok.1 h2
      obtain ⟨b, e, hb⟩ := (accepts_symbol (env := env) (c :: i') r s).1 h3
      exact ⟨b, e, .symbol hb⟩
    rcases ite_cases h1 with ⟨rfl, h2⟩ | ⟨_, h2⟩
    · exact ul (by decide) h2
    rcases ite_cases h2 with ⟨rfl, h3⟩ | ⟨_, h3⟩
    · exact ul (by decide) h3
    rcases ite_cases h3 with ⟨rfl, h4⟩ | ⟨_, h4⟩
    · exact sy h4
    rcases ite_cases h4 with ⟨rfl, h5⟩ | ⟨_, h5⟩
    · exact sy h5
    · cases h5
  · rintro ⟨b, rfl, hb⟩
    cases hb with
    | @ulong n b hb hne => exact means_descriptor env (d := .ulong n) hb hne r
    | symbol hb =>
      have := (accepts_symbol (env := env) _ r _).2 ⟨_, rfl, hb⟩
      cases hb with
      | mk hs hl => cases hs <;> exact map_ok (f := Descriptor.symbol) this

/-! ## Variants -/

theorem takes_variant : ∀ n, Takes (decVar env n) (Lenient.nested env n)
  | 0 => fun i r a => by
    constructor
    · intro h
      cases i with
      | nil => cases h
      | cons c t => cases h
    · rintro ⟨_, _, h⟩; cases h
  | n + 1 => by
    have ih := takes_variant n
    have hl := takes_list env ih
    have hm := takes_map env ih ih
    intro i r a
    constructor
    · intro h
      cases i with
      | nil => cases h
      | cons c t =>
      have h0 : decVariant env (n + 1) c t = .ok (r, a) := h
      clear h
      unfold decVariant at h0
      -- a scalar of type `α` decoded by its own decoder
      have sc : ∀ {α : Type} [DecodeF α] {M : Rep α} {mk : α → Variant}, Accepts α env M →
          (∀ x b, M x b → Lenient.Scalar (mk x) b) → (mk <$> decF env c) t = .ok (r, a) →
          ∃ b, c :: t = b ++ r ∧ Lenient.nested env (n + 1) a b := by
        intro α _ M mk hM hs h
        obtain ⟨x, h1, rfl⟩ := map_eq_ok.1 h
        obtain ⟨b, e, hb⟩ := (hM (c :: t) r x).1 h1
        exact ⟨b, e, .scalar (hs x b hb)⟩
      have one : ∀ {v : Variant}, (pure v : Dec Variant) t = .ok (r, a) → Lenient.Scalar v [c] →
          ∃ b, c :: t = b ++ r ∧ Lenient.nested env (n + 1) a b := by
        intro v h hs
        obtain ⟨rfl, rfl⟩ := pure_cases h
        exact ⟨[c], rfl, .scalar hs⟩
      rcases ite_cases h0 with ⟨rfl, h⟩ | ⟨_, h0⟩
      · exact one h (.prim .null)
      rcases ite_cases h0 with ⟨rfl, h⟩ | ⟨_, h0⟩
      · exact sc accepts_bool (fun _ _ => .boolean) h
      rcases ite_cases h0 with ⟨rfl, h⟩ | ⟨_, h0⟩
      · exact one h (.prim .false)
      rcases ite_cases h0 with ⟨rfl, h⟩ | ⟨_, h0⟩
      · exact one h (.prim .true)
      rcases ite_cases h0 with ⟨rfl, h⟩ | ⟨_, h0⟩
      · exact one h (.prim .uint0)
      rcases ite_cases h0 with ⟨rfl, h⟩ | ⟨_, h0⟩
      · exact one h (.prim .ulong0)
      rcases ite_cases h0 with ⟨rfl, h⟩ | ⟨_, h0⟩
      · exact sc (accepts_decides decides_u8) (fun _ _ => .prim) h
      rcases ite_cases h0 with ⟨rfl, h⟩ | ⟨_, h0⟩
      · exact sc (accepts_decides decides_u16) (fun _ _ => .prim) h
      rcases ite_cases h0 with ⟨rfl, h⟩ | ⟨_, h0⟩
      · exact sc (accepts_decides decides_u32) (fun _ _ => .prim) h
      rcases ite_cases h0 with ⟨rfl, h⟩ | ⟨_, h0⟩
      · exact sc (accepts_decides decides_u64) (fun _ _ => .prim) h
      rcases ite_cases h0 with ⟨rfl, h⟩ | ⟨_, h0⟩
      · exact sc (accepts_decides decides_i8) (fun _ _ => .prim) h
      rcases ite_cases h0 with ⟨rfl, h⟩ | ⟨_, h0⟩
      · exact sc (accepts_decides decides_i16) (fun _ _ => .prim) h
      rcases ite_cases h0 with ⟨rfl, h⟩ | ⟨_, h0⟩
      · exact sc (accepts_decides decides_i32) (fun _ _ => .prim) h
      rcases ite_cases h0 with ⟨rfl, h⟩ | ⟨_, h0⟩
      · exact sc (accepts_decides decides_i64) (fun _ _ => .prim) h
      rcases ite_cases h0 with ⟨rfl, h⟩ | ⟨_, h0⟩
      · exact sc (accepts_decides decides_u32) (fun _ _ => .prim) h
      rcases ite_cases h0 with ⟨rfl, h⟩ | ⟨_, h0⟩
      · exact sc (accepts_decides decides_u64) (fun _ _ => .prim) h
      rcases ite_cases h0 with ⟨rfl, h⟩ | ⟨_, h0⟩
      · exact sc (accepts_decides decides_i32) (fun _ _ => .prim) h
      rcases ite_cases h0 with ⟨rfl, h⟩ | ⟨_, h0⟩
      · exact sc (accepts_decides decides_i64) (fun _ _ => .prim) h
      rcases ite_cases h0 with ⟨rfl, h⟩ | ⟨_, h0⟩
      · exact sc (accepts_decides decides_f32) (fun _ _ => .prim) h
      rcases ite_cases h0 with ⟨rfl, h⟩ | ⟨_, h0⟩
      · exact sc (accepts_decides decides_f64) (fun _ _ => .prim) h
      rcases ite_cases h0 with ⟨rfl, h⟩ | ⟨_, h0⟩
      · exact sc (accepts_decides decides_char) (fun _ _ => .prim) h
      rcases ite_cases h0 with ⟨rfl, h⟩ | ⟨_, h0⟩
      · exact sc accepts_timestamp (fun _ _ => .timestamp) h
      rcases ite_cases h0 with ⟨rfl, h⟩ | ⟨_, h0⟩
      · exact sc (accepts_decides decides_uuid) (fun _ _ => .prim) h
      rcases ite_cases h0 with ⟨rfl, h⟩ | ⟨_, h0⟩
      · exact sc (accepts_decides decides_binary) (fun _ _ => .prim) h
      rcases ite_cases h0 with ⟨rfl, h⟩ | ⟨_, h0⟩
      · exact sc (accepts_decides decides_binary) (fun _ _ => .prim) h
      rcases ite_cases h0 with ⟨rfl, h⟩ | ⟨_, h0⟩
      · exact sc (accepts_decides decides_string) (fun _ _ => .prim) h
      rcases ite_cases h0 with ⟨rfl, h⟩ | ⟨_, h0⟩
      · exact sc (accepts_decides decides_string) (fun _ _ => .prim) h
      rcases ite_cases h0 with ⟨rfl, h⟩ | ⟨_, h0⟩
      · exact sc accepts_symbol (fun _ _ => .symbol) h
      rcases ite_cases h0 with ⟨rfl, h⟩ | ⟨_, h0⟩
      · exact sc accepts_symbol (fun _ _ => .symbol) h
      have li : ∀ {c : UInt8}, (Variant.list <$> decodeListWith (decVar env n) env c) t = .ok (r, a) →
          ∃ b, c :: t = b ++ r ∧ Lenient.nested env (n + 1) a b := by
        intro c h
        obtain ⟨x, h1, rfl⟩ := map_eq_ok.1 h
        obtain ⟨b, e, hb⟩ := (hl (c :: t) r x).1 h1
        exact ⟨b, e, .list hb⟩
      have mp : ∀ {c : UInt8}, (Variant.map <$> decodeMapWith (decVar env n) (decVar env n) env c) t
          = .ok (r, a) → ∃ b, c :: t = b ++ r ∧ Lenient.nested env (n + 1) a b := by
        intro c h
        obtain ⟨x, h1, rfl⟩ := map_eq_ok.1 h
        obtain ⟨b, e, hb⟩ := (hm (c :: t) r x).1 h1
        exact ⟨b, e, .map hb⟩
      rcases ite_cases h0 with ⟨rfl, h⟩ | ⟨_, h0⟩
      · obtain ⟨rfl, rfl⟩ := pure_cases h
        exact ⟨[0x45], rfl, .list .empty⟩
      rcases ite_cases h0 with ⟨rfl, h⟩ | ⟨_, h0⟩
      · exact li h
      rcases ite_cases h0 with ⟨rfl, h⟩ | ⟨_, h0⟩
      · exact li h
      rcases ite_cases h0 with ⟨rfl, h⟩ | ⟨_, h0⟩
      · exact mp h
      rcases ite_cases h0 with ⟨rfl, h⟩ | ⟨_, h0⟩
      · exact mp h
      rcases ite_cases h0 with ⟨rfl, h⟩ | ⟨_, h0⟩
      · obtain ⟨r1, d, h1, h2⟩ := bind_eq_ok.1 h
        obtain ⟨r2, v, h3, h4⟩ := bind_eq_ok.1 h2
        obtain ⟨rfl, rfl⟩ := pure_cases h4
        obtain ⟨db, rfl, hdb⟩ := (accepts_descriptor _ _ _).1 h1
        obtain ⟨b, rfl, hb⟩ := (ih _ _ _).1 h3
        exact ⟨0x00 :: (db ++ b), by simp [FC.described], .described hdb hb⟩
      · cases h0
    · rintro ⟨b, rfl, hb⟩
      cases hb with
      | scalar hb =>
        cases hb with
        | prim hb => exact reads_prim env n hb r
        | boolean hb =>
          cases hb with
          | short =>
            rename_i v
            cases v <;> rfl
          | byte x => rfl
        | symbol hb =>
          have := (accepts_symbol (env := env) _ r _).2 ⟨_, rfl, hb⟩
          cases hb with
          | mk hs hl => cases hs <;> exact map_ok (f := Variant.symbol) this
        | timestamp hb =>
          have := (accepts_timestamp (env := env) _ r _).2 ⟨_, rfl, hb⟩
          cases hb <;> exact map_ok (f := Variant.timestamp) this
      | list hb =>
        have := (hl _ r _).2 ⟨_, rfl, hb⟩
        cases hb with
        | empty => rfl
        | mk items hh hi =>
          cases hh with
          | mk hc _ _ _ => cases hc <;> exact map_ok (f := Variant.list) this
      | map hb =>
        have := (hm _ r _).2 ⟨_, rfl, hb⟩
        cases hb with
        | mk items pad hh hn hi =>
          cases hh with
          | mk hc _ _ _ => cases hc <;> exact map_ok (f := Variant.map) this
      | @described d v db b hdb hb =>
        have h1 := (accepts_descriptor (env := env) (db ++ (b ++ r)) (b ++ r) d).2 ⟨_, rfl, hdb⟩
        have h2 := (ih (b ++ r) r v).2 ⟨_, rfl, hb⟩
        show (decode Descriptor env >>= fun d => decVar env n >>= fun v =>
          Pure.pure (Variant.described d v)) ((db ++ b) ++ r) = _
        rw [List.append_assoc, bind_ok h1, bind_ok h2]
        rfl

theorem accepts_variant : Accepts Variant env (Lenient.any env) := takes_variant env.stackDepth

/-! ## Types built from others -/

theorem accepts_option {α : Type} [DecodeF α] {L : Rep α} (h : Accepts α env L) :
    Accepts (Option α) env (Lenient.nullable L) := by
  intro i r o
  constructor
  · intro hi
    obtain ⟨c, t, rfl, h1⟩ := decode_ok hi
    rcases ite_cases h1 with ⟨rfl, h2⟩ | ⟨hc, h2⟩
    · obtain ⟨rfl, rfl⟩ := pure_cases h2; exact ⟨[0x40], rfl, .none⟩
    · obtain ⟨a, h3, rfl⟩ := map_eq_ok.1 h2
      obtain ⟨b, rfl, hb⟩ := (takes_decF h c _ _ _).1 h3
      exact ⟨c :: b, rfl, .some hb (by simp only [List.head?_cons, ne_eq, Option.some.injEq]; exact hc)⟩
  · rintro ⟨b, rfl, hb⟩
    cases hb with
    | none => rfl
    | @some a b hb hh =>
      cases b with
      | nil => have := (h [] [] a).2 ⟨[], rfl, hb⟩; cases this
      | cons c b =>
        have h1 := (takes_decF h c _ r a).2 ⟨b, rfl, hb⟩
        have hc : c ≠ FC.null := by simpa [FC.null] using hh
        show (if c = FC.null then pure none else some <$> decF env c : Dec (Option α)) (b ++ r) = _
        rw [if_neg hc]
        exact map_ok h1

theorem accepts_multiple {α : Type} [DecodeF α] {L : Rep α} (h : Accepts α env L)
    (hh : ∀ x b, L x b → b.head? ≠ some 0xe0 ∧ b.head? ≠ some 0xf0) :
    Accepts (Multiple α) env (Lenient.multiple env L) := by
  intro i r o
  have hv := accepts_vec h
  constructor
  · intro hi
    obtain ⟨c, t, rfl, h1⟩ := decode_ok hi
    rcases ite_cases h1 with ⟨hc, h2⟩ | ⟨hc, h2⟩
    · obtain ⟨⟨l⟩, h3, rfl⟩ := map_eq_ok.1 h2
      obtain ⟨b, e, hb⟩ := (hv (c :: t) _ _).1 h3
      exact ⟨b, e, .array hb⟩
    · obtain ⟨x, h3, rfl⟩ := map_eq_ok.1 h2
      obtain ⟨b, e, hb⟩ := (h (c :: t) _ _).1 h3
      exact ⟨b, e, .one hb⟩
  · rintro ⟨b, rfl, hb⟩
    cases hb with
    | @one x b hb =>
      have h1 := (h _ r x).2 ⟨b, rfl, hb⟩
      have h2 := hh x b hb
      cases b with
      | nil => have := (h [] [] x).2 ⟨[], rfl, hb⟩; cases this
      | cons c b =>
        have hc : ¬ (c = FC.array8 ∨ c = FC.array32) := by
          rintro (rfl | rfl)
          · exact h2.1 rfl
          · exact h2.2 rfl
        show (if c = FC.array8 ∨ c = FC.array32 then _ else _ : Dec (Multiple α)) (b ++ r) = _
        rw [if_neg hc]
        exact map_ok h1
    | @array l b hb =>
      have h1 := (hv _ r ⟨l⟩).2 ⟨b, rfl, hb⟩
      cases hb with
      | mk k items hd hi =>
        cases hd with
        | mk hc _ _ _ => cases hc <;> exact map_ok (f := fun v : Vec α => (⟨v.items⟩ : Multiple α)) h1

theorem lenient_symbol_head {s : Symbol} {b : Bytes} (h : Lenient.symbol s b) :
    b.head? = some 0xa3 ∨ b.head? = some 0xb3 := by
  cases h with
  | mk hs _ => cases hs <;> simp

theorem accepts_symbols : Accepts Symbols env (Lenient.multiple env Lenient.symbol) :=
  accepts_multiple accepts_symbol fun x b h => by
    rcases lenient_symbol_head h with h | h <;> rw [h] <;> decide

theorem accepts_hmap {K V : Type} [HKey K] [LawfulKey K] [DecodeF K] [DecodeF V] {LK : Rep K}
    {LV : Rep V} (hk : Accepts K env LK) (hv : Accepts V env LV) :
    Accepts (HMap K V) env fun m => Lenient.map env LK LV m.entries := by
  have e : decode (HMap K V) env =
      HMap.mk <$> (formatCode >>= decodeMapWith (decode K env) (decode V env) env) := by
    rw [map_eq_pure_bind, bind_assoc]
    funext i
    cases i with
    | nil => rfl
    | cons c t =>
      show (HMap.mk <$> decodeMapWith (decode K env) (decode V env) env c) t = _
      rw [map_eq_pure_bind]; rfl
  rw [accepts_iff, e]
  refine ((takes_map env hk hv).map HMap.mk).congr fun m b => ⟨?_, ?_⟩
  · rintro ⟨l, rfl, h⟩; exact h
  · intro h; exact ⟨m.entries, rfl, h⟩

theorem accepts_vlist : Accepts VList env fun l => Lenient.list env (Lenient.any env) l.items := by
  have h := takes_list env (accepts_variant (env := env))
  intro i r l
  constructor
  · intro hi
    obtain ⟨c, t, rfl, h1⟩ := decode_ok hi
    obtain ⟨x, h2, rfl⟩ := map_eq_ok.1 h1
    exact (h (c :: t) r x).1 h2
  · rintro ⟨b, rfl, hb⟩
    have h1 := (h _ r _).2 ⟨b, rfl, hb⟩
    cases b with
    | nil =>
      generalize l.items = x at hb
      generalize e : ([] : Bytes) = b at hb
      cases hb with
      | empty => cases e
      | mk items hh hi => cases hh; cases e
    | cons c b => exact map_ok (f := VList.mk) h1

end Amqp
