import Verif.Spec.Refusals
import Verif.Proofs.TextErrors
import Verif.Proofs.Crashes
import Verif.Props.Enumerations
/-!
# Which inputs are refused: values

Support for C93.
-/
set_option autoImplicit false
namespace Amqp
open Dec
open Standard (Rep)

variable {env : Env}

theorem bind_eq_err {α β : Type} {x : Dec α} {f : α → Dec β} {i : Bytes} {e : ParseError} :
    (x >>= f) i = .err e ↔ x i = .err e ∨ ∃ r a, x i = .ok (r, a) ∧ f a r = .err e := by
  rw [run_bind]
  cases h : x i with
  | ok q =>
    obtain ⟨r, a⟩ := q
    constructor
    · intro g; exact .inr ⟨r, a, rfl, g⟩
    · rintro (g | ⟨r', a', g, g'⟩)
      · cases g
      · cases g; exact g'
  | err q => simp
  | panic q => simp

theorem map_eq_err {α β : Type} {x : Dec α} {f : α → β} {i : Bytes} {e : ParseError} :
    (f <$> x) i = .err e ↔ x i = .err e := by
  rw [run_map]
  cases h : x i with
  | ok q => simp
  | err q => simp
  | panic q => simp

/-- The decoder refuses exactly `R`. -/
def Refuses {α : Type} (d : Dec α) (R : Refusal) : Prop := ∀ i e, d i = .err e ↔ R e i

section
variable {α β : Type} {d : Dec α} {R : Refusal}

theorem Refuses.congr (h : Refuses d R) {S : Refusal} (hd : ∀ e i, R e i ↔ S e i) : Refuses d S :=
  fun i e => by rw [h i e]; exact hd e i

theorem Refuses.pure (a : α) : Refuses (Pure.pure a : Dec α) Refuse.never :=
  fun _ _ => ⟨nofun, nofun⟩

theorem Refuses.map (f : α → β) (h : Refuses d R) : Refuses (f <$> d) R :=
  fun i e => by rw [map_eq_err]; exact h i e

theorem Refuses.bind {L : Rep α} {f : α → Dec β} {S : α → Refusal} (h : Refuses d R) (ht : Takes d L)
    (hf : ∀ a, Refuses (f a) (S a)) :
    Refuses (d >>= f) fun e i => R e i ∨ ∃ a b r, i = b ++ r ∧ L a b ∧ S a e r := by
  intro i e
  rw [bind_eq_err, h i e]
  constructor
  · rintro (h1 | ⟨r, a, h1, h2⟩)
    · exact .inl h1
    · obtain ⟨b, rfl, hb⟩ := (ht _ _ _).1 h1
      exact .inr ⟨a, b, r, rfl, hb, (hf a _ _).1 h2⟩
  · rintro (h1 | ⟨a, b, r, rfl, hb, h2⟩)
    · exact .inl h1
    · exact .inr ⟨r, a, (ht _ _ _).2 ⟨b, rfl, hb⟩, (hf a _ _).2 h2⟩

/-- Nothing that follows is refused. -/
theorem Refuses.bind_never {f : α → Dec β} (h : Refuses d R) (hf : ∀ a, Refuses (f a) Refuse.never) :
    Refuses (d >>= f) R := by
  intro i e
  rw [bind_eq_err, h i e]
  refine ⟨?_, .inl⟩
  rintro (h1 | ⟨r, a, -, h2⟩)
  · exact h1
  · exact ((hf a _ _).1 h2).elim

theorem Refuses.decodeN {L : Rep α} (h : Refuses d R) (ht : Takes d L) :
    ∀ n, Refuses (Amqp.decodeN d n) (Refuse.items L R n)
  | 0 => (Refuses.pure _).congr fun e i => ⟨nofun, fun h => by cases h with | mk g hg _ _ => cases hg⟩
  | n + 1 => by
    refine (h.bind ht fun x => ((Refuses.decodeN h ht n).bind (ht.decodeN n) fun xs =>
      Refuses.pure (x :: xs))).congr fun p i => ⟨?_, ?_⟩
    · rintro (h1 | ⟨a, b, r, rfl, hb, h1 | ⟨_, _, _, _, _, h1⟩⟩)
      · exact .mk [] (Nat.succ_pos _) (by simp) h1
      · cases h1 with
        | @mk good p tail hg hi ht =>
          have := Refuse.items.mk (n := n + 1) (L := L) ((a, b) :: good) (e := p) (tail := tail)
            (by simp; omega) (by
              intro g hg
              rcases List.mem_cons.1 hg with rfl | hg
              · exact hb
              · exact hi g hg) ht
          simpa using this
      · exact h1.elim
    · intro h1
      cases h1 with
      | @mk good p tail hg hi ht =>
        cases good with
        | nil => exact .inl ht
        | cons g good =>
          refine .inr ⟨g.1, g.2, good.flatMap Prod.snd ++ tail, by simp, hi g (by simp), .inl ?_⟩
          exact .mk good (by simpa using hg) (fun x hx => hi x (by simp [hx])) ht

theorem Refuses.withSlice (h : Refuses d R) (n : Nat) : Refuses (Amqp.withSlice n d) fun e i =>
    ∃ body rest, i = body ++ rest ∧ body.length = n ∧ R e body := by
  intro i e
  unfold Amqp.withSlice
  by_cases hl : i.length < n
  · rw [if_pos hl]
    constructor
    · nofun
    · rintro ⟨b, r, rfl, hb, _⟩
      simp at hl; omega
  · rw [if_neg hl]
    have key : (match d (i.take n) with
        | .ok (_, a) => .ok (i.drop n, a)
        | .err e => .err e
        | .panic p => .panic p : Res ParseError (Bytes × α)) = .err e ↔ d (i.take n) = .err e := by
      cases d (i.take n) <;> simp
    refine key.trans ((h _ _).trans ?_)
    constructor
    · intro hc
      exact ⟨i.take n, i.drop n, (List.take_append_drop n i).symm, by simp; omega, hc⟩
    · rintro ⟨b, r, rfl, hb, hc⟩
      rw [List.take_left' hb]; exact hc
end

section
variable {K V : Type} [HKey K]

theorem Refuses.mapLoop {kd : Dec K} {vd : Dec V} {LK : Rep K} {LV : Rep V} {RK RV : Refusal}
    (hk : Refuses kd RK) (hv : Refuses vd RV) (tk : Takes kd LK) (tv : Takes vd LV) :
    ∀ n acc, Refuses (Amqp.mapLoop kd vd n acc)
      (Refuse.entries LK RK LV RV (fun k => HKey.hashOk k = true) n)
  | 0, acc => (Refuses.pure acc).congr fun p i => ⟨nofun, fun h => by
      cases h with
      | key _ hg => cases hg
      | value _ hg => cases hg⟩
  | n + 1, acc => by
    have last : ∀ k v, Refuses (if HKey.hashOk k = true then
        Amqp.mapLoop kd vd n (insertEntry HKey.keq k v acc) else Dec.abort .unimplemented) fun p i =>
        HKey.hashOk k = true ∧ Refuse.entries LK RK LV RV (fun k => HKey.hashOk k = true) n p i := by
      intro k v i p
      by_cases hh : HKey.hashOk k = true
      · rw [if_pos hh, Refuses.mapLoop hk hv tk tv n _ i p]
        simp [hh]
      · rw [if_neg hh]
        exact ⟨nofun, fun h => absurd h.1 hh⟩
    refine (hk.bind tk fun k => hv.bind tv fun v => last k v).congr fun p i => ⟨?_, ?_⟩
    · rintro (h1 | ⟨k, u, r, rfl, hu, h1 | ⟨v, w, r', rfl, hw, hh, h1⟩⟩)
      · exact .key [] (Nat.succ_pos _) (by simp) h1
      · exact .value [] (Nat.succ_pos _) (by simp) hu h1
      · have hc : ∀ {good : List ((K × Bytes) × (V × Bytes))},
            (∀ g ∈ good, LK g.1.1 g.1.2 ∧ LV g.2.1 g.2.2 ∧ HKey.hashOk g.1.1 = true) →
            ∀ g ∈ (((k, u), (v, w)) :: good), LK g.1.1 g.1.2 ∧ LV g.2.1 g.2.2 ∧
              HKey.hashOk g.1.1 = true := by
          intro good hi g hg
          rcases List.mem_cons.1 hg with rfl | hg
          · exact ⟨hu, hw, hh⟩
          · exact hi g hg
        cases h1 with
        | @key good p tail hg hi ht =>
          have := Refuse.entries.key (n := n + 1) (RK := RK) (RV := RV)
            (LK := LK) (LV := LV) (hashes := fun k => HKey.hashOk k = true) (((k, u), (v, w)) :: good)
            (by simp; omega) (hc hi) ht
          simpa using this
        | @value good k' p u' tail hg hi hk' ht =>
          have := Refuse.entries.value (n := n + 1) (RK := RK) (RV := RV)
            (LK := LK) (LV := LV) (hashes := fun k => HKey.hashOk k = true) (((k, u), (v, w)) :: good)
            (by simp; omega) (hc hi) hk' ht
          simpa using this
    · intro h1
      cases h1 with
      | @key good p tail hg hi ht =>
        cases good with
        | nil => exact .inl ht
        | cons g good =>
          obtain ⟨g1, g2, g3⟩ := hi g (by simp)
          refine .inr ⟨g.1.1, g.1.2, g.2.2 ++ ((good.flatMap fun g => g.1.2 ++ g.2.2) ++ tail), by simp, g1,
            .inr ⟨g.2.1, g.2.2, _, rfl, g2, g3, ?_⟩⟩
          exact .key good (by simpa using hg) (fun x hx => hi x (by simp [hx])) ht
      | @value good k' p u' tail hg hi hk' ht =>
        cases good with
        | nil => exact .inr ⟨k', u', tail, by simp, hk', .inl ht⟩
        | cons g good =>
          obtain ⟨g1, g2, g3⟩ := hi g (by simp)
          refine .inr ⟨g.1.1, g.1.2, g.2.2 ++ ((good.flatMap fun g => g.1.2 ++ g.2.2) ++ (u' ++ tail)), by simp, g1,
            .inr ⟨g.2.1, g.2.2, _, rfl, g2, g3, ?_⟩⟩
          exact .value good (by simpa using hg) (fun x hx => hi x (by simp [hx])) hk' ht
end

/-! ## Parts of values -/

theorem refuses_takeN (n : Nat) : Refuses (takeN n) (Refuse.short n) := by
  intro i e
  unfold takeN
  by_cases h : i.length < n
  · rw [if_pos h]
    constructor
    · intro g; injection g with g; subst g; exact .mk h
    · rintro ⟨_⟩; rfl
  · rw [if_neg h]
    exact ⟨nofun, fun g => by cases g with | mk g => exact absurd g h⟩

theorem refuses_readU8 : Refuses readU8 (Refuse.short 1) := by
  intro i e
  cases i with
  | nil =>
    constructor
    · intro g; injection g with g; subst g; exact .mk (by simp)
    · rintro ⟨_⟩; rfl
  | cons c t => exact ⟨nofun, fun g => by cases g with | mk g => simp at g⟩

theorem refuses_readBE (n : Nat) : Refuses (readBE n) (Refuse.short n) := (refuses_takeN n).map _

theorem takes_readU8 : Takes readU8 fun x b => b = [x] := by
  intro i r a
  cases i with
  | nil => exact ⟨nofun, fun ⟨b, h, hb⟩ => by subst hb; cases h⟩
  | cons c t =>
    constructor
    · intro h; injection h with h; injection h with h1 h2; subst h1 h2; exact ⟨[c], rfl, rfl⟩
    · rintro ⟨b, h, rfl⟩; injection h with h1 h2; subst h1 h2; rfl

theorem refuses_bytesU8 : Refuses readBytesU8 (Refuse.sized 1) := by
  refine (refuses_readU8.bind takes_readU8 fun x => refuses_takeN x.toNat).congr fun e i => ⟨?_, ?_⟩
  · rintro (h | ⟨x, b, r, rfl, rfl, h⟩)
    · cases h with
      | mk h => exact .length h
    · cases h with
      | mk h => exact .content (num_one x) h
  · intro h
    cases h with
    | length h => exact .inl (.mk h)
    | content hl h =>
      obtain ⟨x, rfl, rfl⟩ := hl.one
      exact .inr ⟨x, _, _, rfl, rfl, .mk h⟩

theorem refuses_bytesU32 : Refuses readBytesU32 (Refuse.sized 4) := by
  refine ((refuses_readBE 4).bind (takes_readBE 4) fun k => refuses_takeN k).congr fun e i => ⟨?_, ?_⟩
  · rintro (h | ⟨x, b, r, rfl, hb, h⟩)
    · cases h with
      | mk h => exact .length h
    · cases h with
      | mk h => exact .content hb h
  · intro h
    cases h with
    | length h => exact .inl (.mk h)
    | content hl h => exact .inr ⟨_, _, _, rfl, hl, .mk h⟩

theorem takes_bytesU8 : Takes readBytesU8 fun s b => ∃ l, Num 1 l s.length ∧ b = l ++ s := by
  refine (takes_readU8.bind fun x => takes_takeN x.toNat).congr fun s b => ⟨?_, ?_⟩
  · rintro ⟨x, u, v, rfl, rfl, rfl, h⟩
    exact ⟨[x], h ▸ num_one x, rfl⟩
  · rintro ⟨l, hl, rfl⟩
    obtain ⟨x, rfl, hx⟩ := hl.one
    exact ⟨x, _, _, rfl, rfl, rfl, hx.symm⟩

theorem takes_bytesU32 : Takes readBytesU32 fun s b => ∃ l, Num 4 l s.length ∧ b = l ++ s := by
  refine ((takes_readBE 4).bind fun k => takes_takeN k).congr fun s b => ⟨?_, ?_⟩
  · rintro ⟨x, u, v, rfl, hu, rfl, rfl⟩
    exact ⟨u, hu, rfl⟩
  · rintro ⟨l, hl, rfl⟩
    exact ⟨_, l, s, rfl, hl, rfl, rfl⟩

theorem refuses_fromUtf8 (s : Bytes) : Refuses (fromUtf8 s) fun e _ =>
    ∃ u, e = .utf8Error u ∧ StopsBeing s u := by
  intro i e
  unfold fromUtf8
  by_cases h : validUtf8 s = true
  · rw [dif_pos h]
    exact ⟨nofun, fun ⟨u, _, g⟩ => absurd ((validUtf8_iff s).1 h) g.ill⟩
  · rw [dif_neg h]
    constructor
    · intro g; injection g with g; exact ⟨_, g.symm, (utf8Error_iff h _).1 rfl⟩
    · rintro ⟨u, rfl, g⟩; rw [(utf8Error_iff h u).2 g]; rfl

theorem refuses_text {w : Nat} {d : Dec Bytes} (h : Refuses d (Refuse.sized w))
    (ht : Takes d fun s b => ∃ l, Num w l s.length ∧ b = l ++ s) :
    Refuses (d >>= fromUtf8) (Refuse.text w) := by
  refine (h.bind ht refuses_fromUtf8).congr fun e i => ⟨?_, ?_⟩
  · rintro (h | ⟨s, b, r, rfl, ⟨l, hl, rfl⟩, u, rfl, hu⟩)
    · exact .sized h
    · rw [List.append_assoc]; exact .illFormed r hl hu
  · intro h
    cases h with
    | sized h => exact .inl h
    | @illFormed l s u rest hl hu => exact .inr ⟨s, l ++ s, rest, by simp, ⟨l, hl, rfl⟩, u, rfl, hu⟩

/-! ## Format codes -/

/-- For each of the codes. -/
def Each {α : Type} (f : UInt8 → Dec α) : List (UInt8 × Refusal) → Prop
  | [] => True
  | p :: t => Refuses (f p.1) p.2 ∧ Each f t

theorem Each.mem {α : Type} {f : UInt8 → Dec α} : ∀ {forms : List (UInt8 × Refusal)}, Each f forms →
    ∀ p ∈ forms, Refuses (f p.1) p.2
  | q :: t, h, p, hp => by
    rcases List.mem_cons.1 hp with rfl | hp
    · exact h.1
    · exact h.2.mem p hp

theorem refuses_coded {α : Type} {f : UInt8 → Dec α} {forms : List (UInt8 × Refusal)}
    (h : Each f forms)
    (ho : ∀ c, (∀ p ∈ forms, p.1 ≠ c) → f c = Dec.fail (.invalidFormatCode c)) :
    Refuses (formatCode >>= f) (Refuse.coded forms) := by
  intro i e
  cases i with
  | nil =>
    constructor
    · intro g; injection g with g; subst g; exact .empty
    · rintro ⟨_⟩; rfl
  | cons c t =>
    show f c t = .err e ↔ _
    constructor
    · intro g
      by_cases hc : ∃ p ∈ forms, p.1 = c
      · obtain ⟨p, hp, rfl⟩ := hc
        exact .form hp ((h.mem p hp _ _).1 g)
      · have hc : ∀ p ∈ forms, p.1 ≠ c := fun p hp g => hc ⟨p, hp, g⟩
        rw [ho c hc] at g
        injection g with g; subst g
        exact .other hc
    · intro g
      cases g with
      | other hc => rw [ho c hc]; rfl
      | form hp hr => exact (h.mem _ hp _ _).2 hr

theorem refuses_validate {α : Type} [DecodeF α] {k : UInt8} {d : Dec α} {R : Refusal}
    (hd : ∀ c, decF env c = validateCode c k d) (h : Refuses d R) :
    RefusesOn α env (Refuse.coded [(k, R)]) := by
  refine refuses_coded (f := decF env) ⟨?_, trivial⟩ fun c hc => ?_
  · show Refuses (decF env k) R
    rw [hd, validateCode_self]; exact h
  · rw [hd, validateCode, if_pos (fun e => hc _ (List.mem_singleton.2 rfl) e.symm)]

theorem refuses_bool : RefusesOn Bool env Refuse.boolean :=
  refuses_coded (f := decF env) ⟨Refuses.pure _, Refuses.pure _, refuses_readU8.map _, trivial⟩ fun c hc => by
    simp only [List.forall_mem_cons, ne_eq, eq_comm] at hc
    simp only [decF, FC.boolean, FC.booleanTrue, FC.booleanFalse, hc, if_false]
theorem refuses_u8 : RefusesOn UInt8 env Refuse.ubyte := refuses_validate (fun _ => rfl) refuses_readU8
theorem refuses_u16 : RefusesOn UInt16 env Refuse.ushort :=
  refuses_validate (fun _ => rfl) ((refuses_readBE 2).map _)
theorem refuses_u32 : RefusesOn UInt32 env Refuse.uint :=
  refuses_coded (f := decF env)
    ⟨Refuses.pure _, refuses_readU8.map _, (refuses_readBE 4).map _, trivial⟩ fun c hc => by
    simp only [List.forall_mem_cons, ne_eq, eq_comm] at hc
    simp only [decF, FC.uint, FC.smallUint, FC.uint0, hc, if_false]
theorem refuses_u64 : RefusesOn UInt64 env Refuse.ulong :=
  refuses_coded (f := decF env)
    ⟨Refuses.pure _, refuses_readU8.map _, (refuses_readBE 8).map _, trivial⟩ fun c hc => by
    simp only [List.forall_mem_cons, ne_eq, eq_comm] at hc
    simp only [decF, FC.ulong, FC.smallUlong, FC.ulong0, hc, if_false]
theorem refuses_i8 : RefusesOn Int8 env Refuse.byte :=
  refuses_validate (fun _ => rfl) (refuses_readU8.map _)
theorem refuses_i16 : RefusesOn Int16 env Refuse.int16 :=
  refuses_validate (fun _ => rfl) ((refuses_readBE 2).map _)
theorem refuses_i32 : RefusesOn Int32 env Refuse.int32 :=
  refuses_coded (f := decF env)
    ⟨(refuses_readU8.map _).map _, (refuses_readBE 4).map _, trivial⟩ fun c hc => by
    simp only [List.forall_mem_cons, ne_eq, eq_comm] at hc
    simp only [decF, FC.int, FC.smallInt, hc, if_false]
theorem refuses_i64 : RefusesOn Int64 env Refuse.int64 :=
  refuses_coded (f := decF env)
    ⟨(refuses_readU8.map _).map _, (refuses_readBE 8).map _, trivial⟩ fun c hc => by
    simp only [List.forall_mem_cons, ne_eq, eq_comm] at hc
    simp only [decF, FC.long, FC.smallLong, hc, if_false]
theorem refuses_f32 : RefusesOn F32 env Refuse.float :=
  refuses_validate (fun _ => rfl) ((refuses_readBE 4).map _)
theorem refuses_f64 : RefusesOn F64 env Refuse.double :=
  refuses_validate (fun _ => rfl) ((refuses_readBE 8).map _)

theorem refuses_scalar : Refuses (readBE 4 >>= fun o => match charFromU32 o with
    | some c => pure c
    | none => Dec.fail (.invalidChar (UInt32.ofNat o)) : Dec Char) Refuse.scalar := by
  have last : ∀ o, Refuses (match charFromU32 o with
      | some c => pure c
      | none => Dec.fail (.invalidChar (UInt32.ofNat o)) : Dec Char) fun e _ =>
      e = .invalidChar (UInt32.ofNat o) ∧ (0xd800 ≤ o ∧ o < 0xe000 ∨ 0x110000 ≤ o) := by
    intro o i e
    unfold charFromU32
    by_cases h : o < 0xD800 ∨ (0xDFFF < o ∧ o < 0x110000)
    · rw [dif_pos h]
      exact ⟨nofun, fun g => by omega⟩
    · rw [dif_neg h]
      constructor
      · intro g; injection g with g; exact ⟨g.symm, by omega⟩
      · rintro ⟨rfl, _⟩; rfl
  refine ((refuses_readBE 4).bind (takes_readBE 4) last).congr fun e i => ⟨?_, ?_⟩
  · rintro (h | ⟨n, b, r, rfl, hb, rfl, hn⟩)
    · exact .short h
    · exact .invalid r hb hn
  · intro h
    cases h with
    | short h => exact .inl h
    | invalid rest hb hn => exact .inr ⟨_, _, rest, rfl, hb, rfl, hn⟩

theorem refuses_char : RefusesOn Char env Refuse.char := refuses_validate (fun _ => rfl) refuses_scalar

theorem refuses_millis (m : Int) : Refuses (datetimeFromMillis m) Refuse.never := by
  have : ∀ s n, Refuses (utcTimestamp s n) Refuse.never := by
    intro s n i e
    unfold utcTimestamp
    by_cases h : dtOk s n = true
    · rw [dif_pos h]; exact ⟨nofun, nofun⟩
    · rw [dif_neg h]; exact ⟨nofun, nofun⟩
  unfold datetimeFromMillis
  dsimp only
  split
  · exact this _ _
  · exact this _ _

theorem refuses_timestamp : RefusesOn DateTime env Refuse.timestamp :=
  refuses_validate (fun _ => rfl) ((refuses_readBE 8).bind_never fun _ => refuses_millis _)

theorem refuses_uuid : RefusesOn Uuid env Refuse.uuid :=
  refuses_validate (fun _ => rfl) ((refuses_takeN 16).bind_never fun b i e => by
    unfold uuidOf
    by_cases h : b.length = 16
    · rw [dif_pos h]; exact ⟨nofun, nofun⟩
    · rw [dif_neg h]; exact ⟨nofun, nofun⟩)

theorem refuses_binary : RefusesOn Binary env Refuse.binary :=
  refuses_coded (f := decF env) ⟨refuses_bytesU8.map _, refuses_bytesU32.map _, trivial⟩ fun c hc => by
    simp only [List.forall_mem_cons, ne_eq, eq_comm] at hc
    simp only [decF, FC.binary8, FC.binary32, hc, if_false]
theorem refuses_text8 : Refuses (readBytesU8 >>= fromUtf8) (Refuse.text 1) :=
  refuses_text refuses_bytesU8 takes_bytesU8
theorem refuses_text32 : Refuses (readBytesU32 >>= fromUtf8) (Refuse.text 4) :=
  refuses_text refuses_bytesU32 takes_bytesU32
theorem refuses_string : RefusesOn RStr env Refuse.string :=
  refuses_coded (f := decF env) ⟨refuses_text8, refuses_text32, trivial⟩ fun c hc => by
    simp only [List.forall_mem_cons, ne_eq, eq_comm] at hc
    simp only [decF, FC.string8, FC.string32, hc, if_false]
theorem refuses_symbol : RefusesOn Symbol env Refuse.symbol :=
  refuses_coded (f := decF env) ⟨refuses_text8.map _, refuses_text32.map _, trivial⟩ fun c hc => by
    simp only [List.forall_mem_cons, ne_eq, eq_comm] at hc
    simp only [decF, FC.symbol8, FC.symbol32, hc, if_false]
theorem refuses_descriptor : RefusesOn Descriptor env Refuse.descriptor :=
  refuses_coded (f := decF env) ⟨(refuses_readU8.map _).map _, ((refuses_readBE 8).map _).map _,
    (refuses_text8.map _).map _, (refuses_text32.map _).map _, trivial⟩ fun c hc => by
    simp only [List.forall_mem_cons, ne_eq, eq_comm] at hc
    simp only [decF, FC.smallUlong, FC.ulong, FC.symbol8, FC.symbol32, hc, if_false]
theorem refuses_messageId : RefusesOn MessageId env Refuse.messageId :=
  refuses_coded (f := decF env) ⟨(Refuses.pure _).map _, (refuses_readU8.map _).map _,
    ((refuses_readBE 8).map _).map _, Refuses.map _ ((refuses_takeN 16).bind_never fun b i e => by
      unfold uuidOf
      by_cases h : b.length = 16
      · rw [dif_pos h]; exact ⟨nofun, nofun⟩
      · rw [dif_neg h]; exact ⟨nofun, nofun⟩), (refuses_bytesU8.map _).map _,
    (refuses_bytesU32.map _).map _, refuses_text8.map _, refuses_text32.map _, trivial⟩ fun c hc => by
    simp only [List.forall_mem_cons, ne_eq, eq_comm] at hc
    simp only [decF, FC.smallUlong, FC.ulong, FC.ulong0, FC.uuid, FC.binary8, FC.binary32, FC.string8,
      FC.string32, hc, or_self, if_false]

/-! ## Enumerations -/

theorem refuses_enum {E β : Type} [Encode E] [DecodeF E] [Encode β] [DecodeF β] [SafeDec β]
    {name : String} {value : E → β} {L : Rep β} {R : Refusal} {M : Rep E}
    (h : Enumerates E β name value) (hr : RefusesOn β env R) (hl : Accepts β env L)
    (hm : Accepts E env M) : RefusesOn E env (Refuse.restricted L R name M) := by
  intro i e
  constructor
  · intro g
    cases hb : decode β env i with
    | err e' =>
      rw [h.malformed env i e' hb] at g
      injection g with g; subst g
      exact .base ((hr _ _).1 hb)
    | panic p => exact absurd ((panics_never (env := env) _ _).1 hb) id
    | ok q =>
      obtain ⟨r, b⟩ := q
      obtain ⟨u, rfl, hu⟩ := (hl _ _ _).1 hb
      have hn : ∀ x, ¬ M x u := fun x hx => by
        have := (hm (u ++ r) r x).2 ⟨u, rfl, hx⟩
        rw [g] at this; cases this
      have hv : ∀ x, value x ≠ b := fun x hx => by
        subst hx
        exact hn x ((Takes.reads hm).1 (h.member env u x ((Takes.reads hl).2 hu)))
      rw [h.unknown env u r b ((Takes.reads hl).2 hu) hv] at g
      injection g with g; subst g
      exact .unknown r hu hn
  · intro g
    cases g with
    | base g => exact h.malformed env i e ((hr _ _).2 g)
    | unknown rest hu hn =>
      refine h.unknown env _ rest _ ((Takes.reads hl).2 hu) fun x hx => ?_
      subst hx
      exact hn x ((Takes.reads hm).1 (h.member env _ x ((Takes.reads hl).2 hu)))

theorem refuses_role : RefusesOn Role env (Refuse.role env) :=
  refuses_enum C19_role refuses_bool accepts_bool accepts_role
theorem refuses_senderSettleMode : RefusesOn SenderSettleMode env Refuse.senderSettleMode :=
  refuses_enum C19_sender_settle_mode refuses_u8 accepts_ubyte accepts_senderSettleMode
theorem refuses_receiverSettleMode : RefusesOn ReceiverSettleMode env Refuse.receiverSettleMode :=
  refuses_enum C19_receiver_settle_mode refuses_u8 accepts_ubyte accepts_receiverSettleMode
theorem refuses_terminusDurability : RefusesOn TerminusDurability env Refuse.terminusDurability :=
  refuses_enum C19_terminus_durability refuses_u32 accepts_uint accepts_terminusDurability
theorem refuses_terminusExpiryPolicy :
    RefusesOn TerminusExpiryPolicy env (Refuse.terminusExpiryPolicy env) :=
  refuses_enum C19_terminus_expiry_policy refuses_symbol accepts_symbol accepts_terminusExpiryPolicy
theorem refuses_saslCode : RefusesOn SaslCode env Refuse.saslCode :=
  refuses_enum C19_sasl_code refuses_u8 accepts_ubyte accepts_saslCode
theorem refuses_amqpError : RefusesOn AmqpError env (Refuse.amqpError env) :=
  refuses_enum C19_amqp_error refuses_symbol accepts_symbol accepts_amqpError
theorem refuses_connectionError : RefusesOn ConnectionError env (Refuse.connectionError env) :=
  refuses_enum C19_connection_error refuses_symbol accepts_symbol accepts_connectionError
theorem refuses_sessionError : RefusesOn SessionError env (Refuse.sessionError env) :=
  refuses_enum C19_session_error refuses_symbol accepts_symbol accepts_sessionError
theorem refuses_linkError : RefusesOn LinkError env (Refuse.linkError env) :=
  refuses_enum C19_link_error refuses_symbol accepts_symbol accepts_linkError

theorem refuses_errorCondition : RefusesOn ErrorCondition env Refuse.symbol := by
  show Refuses (decode ErrorCondition env) _
  rw [decode_errorCondition]; exact Refuses.map _ refuses_symbol
theorem refuses_distributionMode : RefusesOn DistributionMode env Refuse.symbol := by
  show Refuses (decode DistributionMode env) _
  rw [decode_distributionMode]; exact Refuses.map _ refuses_symbol

/-! ## Headers -/

theorem refuses_subChecked (bits a b : Nat) : Refuses (subChecked env bits a b) Refuse.never := by
  intro i e
  unfold subChecked
  split
  · exact ⟨nofun, nofun⟩
  · split
    · exact ⟨nofun, nofun⟩
    · exact ⟨nofun, nofun⟩

theorem refuses_compound8 : Refuses (decodeCompound8 env) (Refuse.short 2) :=
  (refuses_takeN 2).bind_never fun _ => (refuses_subChecked _ _ _).bind_never fun _ => Refuses.pure _
theorem refuses_compound32 : Refuses (decodeCompound32 env) (Refuse.short 8) :=
  (refuses_takeN 8).bind_never fun _ => (refuses_subChecked _ _ _).bind_never fun _ => Refuses.pure _

theorem refuses_mapHeader : Refuses (formatCode >>= decodeMapHeader env) (Refuse.header 0xc1 0xd1) :=
  refuses_coded ⟨refuses_compound8 (env := env), refuses_compound32 (env := env), trivial⟩ fun c hc => by
    simp only [List.forall_mem_cons, ne_eq, eq_comm] at hc
    simp only [decodeMapHeader, FC.map8, FC.map32, hc, if_false]
theorem refuses_arrayHeader : Refuses (formatCode >>= decodeArrayHeader env) (Refuse.header 0xe0 0xf0) :=
  refuses_coded ⟨refuses_compound8 (env := env), refuses_compound32 (env := env), trivial⟩ fun c hc => by
    simp only [List.forall_mem_cons, ne_eq, eq_comm] at hc
    simp only [decodeArrayHeader, FC.array8, FC.array32, hc, if_false]
theorem refuses_listHeader : Refuses (formatCode >>= decodeListHeader env) Refuse.listHeader :=
  refuses_coded ⟨Refuses.pure _, refuses_compound8 (env := env), refuses_compound32 (env := env), trivial⟩
    fun c hc => by
    simp only [List.forall_mem_cons, ne_eq, eq_comm] at hc
    simp only [decodeListHeader, FC.list0, FC.list8, FC.list32, hc, if_false]

/-! ## Compound values -/

theorem refuses_list {vd : Dec Variant} {L : Rep Variant} {R : Refusal} (h : Refuses vd R)
    (ht : Takes vd L) : Refuses (formatCode >>= decodeListWith vd env) (Refuse.list env L R) := by
  have e : (formatCode >>= decodeListWith vd env) = ((formatCode >>= decodeListHeader env) >>=
      fun h => decodeN vd h.count) := by
    rw [bind_assoc]; rfl
  rw [e]
  refine (refuses_listHeader.bind (takes_listHeader env) fun hd => h.decodeN ht hd.count).congr
    fun p i => ⟨?_, ?_⟩
  · rintro (h1 | ⟨hd, b, r, rfl, ⟨rfl, rfl⟩ | hh, h1⟩)
    · exact .header h1
    · cases h1 with
      | mk g hg => cases hg
    · exact .item hh h1
  · intro h1
    cases h1 with
    | header h1 => exact .inl h1
    | item hh h1 => exact .inr ⟨⟨_, _⟩, _, _, rfl, .inr hh, h1⟩

theorem refuses_mapWith {K V : Type} [HKey K] {kd : Dec K} {vd : Dec V} {LK : Rep K} {LV : Rep V}
    {RK RV : Refusal} (hk : Refuses kd RK) (hv : Refuses vd RV) (tk : Takes kd LK) (tv : Takes vd LV) :
    Refuses (formatCode >>= decodeMapWith kd vd env)
      (Refuse.map env LK RK LV RV fun k => HKey.hashOk k = true) := by
  have e : (formatCode >>= decodeMapWith kd vd env) = ((formatCode >>= decodeMapHeader env) >>=
      fun h => withSlice h.size (mapLoop kd vd (h.count / 2) [])) := by
    rw [bind_assoc]; rfl
  rw [e]
  refine (refuses_mapHeader.bind (takes_mapHeader env) fun h =>
    (Refuses.mapLoop hk hv tk tv (h.count / 2) []).withSlice h.size).congr fun p i => ⟨?_, ?_⟩
  · rintro (h1 | ⟨hd, b, r, rfl, hh, body, rest, rfl, hl, h1⟩)
    · exact .header h1
    · exact .entry rest (hl ▸ hh) h1
  · intro h1
    cases h1 with
    | header h1 => exact .inl h1
    | entry rest hh h1 => exact .inr ⟨⟨_, _⟩, _, _, rfl, hh, _, rest, rfl, rfl, h1⟩

theorem refuses_decF {α : Type} [DecodeF α] {R : Refusal} (h : RefusesOn α env R) (k : UInt8) :
    Refuses (decF (α := α) env k) fun e i => R e (k :: i) := fun i e => h (k :: i) e

theorem refuses_indexU8 : Refuses indexU8 Refuse.never := by
  intro i e
  cases i <;> exact ⟨nofun, nofun⟩

theorem refuses_vec {α : Type} [DecodeF α] {L : Rep α} {R : Refusal} (h : RefusesOn α env R)
    (ht : Accepts α env L) : RefusesOn (Vec α) env (Refuse.array env L R) := by
  have e : decode (Vec α) env = ((formatCode >>= decodeArrayHeader env) >>= fun hd =>
      indexU8 >>= fun k => decodeN (decF env k) hd.count >>= fun items =>
        Pure.pure (⟨items⟩ : Vec α)) := by
    rw [bind_assoc]; rfl
  show Refuses (decode (Vec α) env) _
  rw [e]
  refine (refuses_arrayHeader.bind (takes_arrayHeader env) fun hd => refuses_indexU8.bind takes_indexU8
    fun k => ((refuses_decF h k).decodeN (takes_decF ht k) hd.count).bind_never
      fun items => Refuses.pure (⟨items⟩ : Vec α)).congr
    fun p i => ⟨?_, ?_⟩
  · rintro (h1 | ⟨hd, b, r, rfl, hh, h1 | ⟨k, _, r', rfl, rfl, h1⟩⟩)
    · exact .header h1
    · exact h1.elim
    · exact .item k hh h1
  · intro h1
    cases h1 with
    | header h1 => exact .inl h1
    | item k hh h1 => exact .inr ⟨⟨_, _⟩, _, _, rfl, hh, .inr ⟨k, [k], _, rfl, rfl, h1⟩⟩

/-! ## Variants -/

theorem refuses_nested : ∀ n, Refuses (decVar env n) (Refuse.nested env n)
  | 0 => fun i e => by
    cases i with
    | nil =>
      constructor
      · intro g; injection g with g; subst g; exact .mk (by simp)
      · rintro ⟨_⟩; rfl
    | cons c t => exact ⟨nofun, fun g => by cases g with | mk g => simp at g⟩
  | n + 1 => by
    have ih := refuses_nested n
    have tk := takes_variant (env := env) n
    have hl := refuses_list (env := env) ih tk
    have hm := refuses_mapWith (env := env) ih ih tk tk
    rw [hashes_plain] at hm
    have li : ∀ c, Refuses (Variant.list <$> decodeListWith (decVar env n) env c)
        fun e t => Refuse.list env (Lenient.nested env n) (Refuse.nested env n) e (c :: t) :=
      fun c i e => by rw [map_eq_err]; exact hl (c :: i) e
    have ma : ∀ c, Refuses (Variant.map <$> decodeMapWith (decVar env n) (decVar env n) env c)
        fun e t => Refuse.map env (Lenient.nested env n) (Refuse.nested env n) (Lenient.nested env n)
          (Refuse.nested env n) (fun k => k.holdsMap = false) e (c :: t) :=
      fun c i e => by rw [map_eq_err]; exact hm (c :: i) e
    have de : Refuses (decode Descriptor env >>= fun d => decVar env n >>= fun v =>
        Pure.pure (Variant.described d v)) (Refuse.described (Refuse.nested env n)) := by
      refine (Refuses.bind refuses_descriptor (accepts_descriptor (env := env)) fun d =>
        ih.bind_never fun v => Refuses.pure (Variant.described d v)).congr fun e i => ⟨?_, ?_⟩
      · rintro (h | ⟨d, b, r, rfl, hd, h⟩)
        · exact .descriptor h
        · exact .value hd h
      · intro h
        cases h with
        | descriptor h => exact .inl h
        | value hd h => exact .inr ⟨_, _, _, rfl, hd, h⟩
    have uu : ∀ b, Refuses (uuidOf b) Refuse.never := fun b i e => by
      unfold uuidOf
      by_cases h : b.length = 16
      · rw [dif_pos h]; exact ⟨nofun, nofun⟩
      · rw [dif_neg h]; exact ⟨nofun, nofun⟩
    refine refuses_coded (f := decVariant env (n + 1)) ⟨de, Refuses.pure _, Refuses.pure _, Refuses.pure _,
      Refuses.pure _, Refuses.pure _, Refuses.pure _,
      refuses_readU8.map Variant.ubyte, (refuses_readU8.map _).map Variant.byte,
      (refuses_readU8.map _).map Variant.uint, (refuses_readU8.map _).map Variant.ulong,
      ((refuses_readU8.map _).map _).map Variant.int, ((refuses_readU8.map _).map _).map Variant.long,
      (refuses_readU8.map _).map Variant.boolean,
      ((refuses_readBE 2).map _).map Variant.ushort, ((refuses_readBE 2).map _).map Variant.short,
      ((refuses_readBE 4).map _).map Variant.uint, ((refuses_readBE 4).map _).map Variant.int,
      ((refuses_readBE 4).map _).map Variant.float, refuses_scalar.map Variant.char,
      ((refuses_readBE 8).map _).map Variant.ulong, ((refuses_readBE 8).map _).map Variant.long,
      ((refuses_readBE 8).map _).map Variant.double,
      ((refuses_readBE 8).bind_never fun _ => refuses_millis _).map Variant.timestamp,
      ((refuses_takeN 16).bind_never uu).map Variant.uuid,
      (refuses_bytesU8.map _).map Variant.binary, refuses_text8.map Variant.string,
      (refuses_text8.map _).map Variant.symbol, (refuses_bytesU32.map _).map Variant.binary,
      refuses_text32.map Variant.string, (refuses_text32.map _).map Variant.symbol,
      li _, li _, ma _, ma _, trivial⟩ fun c hc => ?_
    simp only [List.forall_mem_cons, ne_eq, eq_comm] at hc
    unfold decVariant
    simp only [FC.null, FC.boolean, FC.booleanTrue, FC.booleanFalse, FC.uint0, FC.ulong0, FC.ubyte,
      FC.ushort, FC.uint, FC.ulong, FC.byte, FC.short, FC.int, FC.long, FC.smallUint, FC.smallUlong,
      FC.smallInt, FC.smallLong, FC.float, FC.double, FC.char, FC.timestamp, FC.uuid, FC.binary8,
      FC.binary32, FC.string8, FC.string32, FC.symbol8, FC.symbol32, FC.list0, FC.list8, FC.list32,
      FC.map8, FC.map32, FC.described, hc, if_false]

theorem refuses_variant : RefusesOn Variant env (Refuse.any env) := refuses_nested env.stackDepth

/-! ## Types built from others -/

theorem refuses_option {α : Type} [DecodeF α] {R : Refusal} (h : RefusesOn α env R) :
    RefusesOn (Option α) env (Refuse.nullable R) := by
  intro i e
  cases i with
  | nil =>
    have h0 := h [] e
    constructor
    · exact fun g => .some (h0.1 (by injection g with g; subst g; rfl)) nofun
    · intro g
      cases g with
      | some g _ => have := h0.2 g; injection this with this; subst this; rfl
  | cons c t =>
    show (if c = FC.null then pure none else some <$> decF env c : Dec (Option α)) t = _ ↔ _
    by_cases hc : c = FC.null
    · rw [if_pos hc]
      refine ⟨nofun, fun h1 => ?_⟩
      cases h1 with
      | some _ h2 => exact absurd (by rw [hc]; rfl) h2
    · rw [if_neg hc, map_eq_err]
      constructor
      · exact fun h1 => .some ((h (c :: t) e).1 h1) (by simpa [FC.null] using hc)
      · intro h1
        cases h1 with
        | some h1 _ => exact (h (c :: t) e).2 h1

theorem refuses_multiple {α : Type} [DecodeF α] {L : Rep α} {R : Refusal} (h : RefusesOn α env R)
    (ht : Accepts α env L) : RefusesOn (Multiple α) env (Refuse.multiple env L R) := by
  have hv := refuses_vec h ht
  intro i e
  cases i with
  | nil =>
    have h0 := h [] e
    constructor
    · exact fun g => .one (h0.1 (by injection g with g; subst g; rfl)) nofun nofun
    · intro g
      cases g with
      | one g _ => have := h0.2 g; injection this with this; subst this; rfl
      | array _ g => rcases g with g | g <;> cases g
  | cons c t =>
    show (if c = FC.array8 ∨ c = FC.array32 then
      (fun v : Vec α => (⟨v.items⟩ : Multiple α)) <$> decF env c
      else (fun x => ⟨[x]⟩) <$> decF env c : Dec (Multiple α)) t = _ ↔ _
    by_cases hc : c = FC.array8 ∨ c = FC.array32
    · rw [if_pos hc, map_eq_err]
      constructor
      · refine fun h1 => .array ((hv (c :: t) e).1 h1) ?_
        rcases hc with rfl | rfl
        · exact .inl rfl
        · exact .inr rfl
      · intro h1
        cases h1 with
        | one _ h2 h3 =>
          rcases hc with rfl | rfl
          · exact absurd rfl h2
          · exact absurd rfl h3
        | array h1 => exact (hv (c :: t) e).2 h1
    · rw [if_neg hc, map_eq_err]
      constructor
      · exact fun h1 => .one ((h (c :: t) e).1 h1) (by simpa [FC.array8] using fun e => hc (.inl e))
          (by simpa [FC.array32] using fun e => hc (.inr e))
      · intro h1
        cases h1 with
        | one h1 => exact (h (c :: t) e).2 h1
        | array h1 h2 =>
          rcases h2 with e | e
          · exact absurd (.inl (by simpa [FC.array8] using e)) hc
          · exact absurd (.inr (by simpa [FC.array32] using e)) hc

theorem refuses_symbols : RefusesOn Symbols env (Refuse.symbols env) :=
  refuses_multiple refuses_symbol accepts_symbol

theorem refuses_hmap {K V : Type} [HKey K] [DecodeF K] [DecodeF V] {LK : Rep K} {LV : Rep V}
    {RK RV : Refusal} (hk : RefusesOn K env RK) (hv : RefusesOn V env RV) (tk : Accepts K env LK)
    (tv : Accepts V env LV) :
    RefusesOn (HMap K V) env (Refuse.map env LK RK LV RV fun k => HKey.hashOk k = true) := by
  have e : decode (HMap K V) env =
      HMap.mk <$> (formatCode >>= decodeMapWith (decode K env) (decode V env) env) := by
    rw [map_eq_pure_bind, bind_assoc]
    funext i
    cases i with
    | nil => rfl
    | cons c t =>
      show (HMap.mk <$> decodeMapWith (decode K env) (decode V env) env c) t = _
      rw [map_eq_pure_bind]; rfl
  show Refuses (decode (HMap K V) env) _
  rw [e]
  exact (refuses_mapWith hk hv tk tv).map HMap.mk

theorem refuses_vlist : RefusesOn VList env (Refuse.anyList env) := by
  have e : decode VList env = VList.mk <$> (formatCode >>= decodeListWith (decode Variant env) env) := by
    rw [map_eq_pure_bind, bind_assoc]
    funext i
    cases i with
    | nil => rfl
    | cons c t =>
      show (VList.mk <$> decodeListWith (decode Variant env) env c) t = _
      rw [map_eq_pure_bind]; rfl
  show Refuses (decode VList env) _
  rw [e]
  exact (refuses_list refuses_variant accepts_variant).map VList.mk

theorem refuses_map : RefusesOn Map env (Refuse.anyMap env) := by
  have h := refuses_hmap (env := env) (K := Variant) (V := Variant) refuses_variant refuses_variant
    accepts_variant accepts_variant
  rw [hashes_plain] at h
  exact h

theorem refuses_fields : RefusesOn Fields env (Refuse.symbolMap env) := by
  have h := refuses_hmap (env := env) (K := Symbol) (V := Variant) refuses_symbol refuses_variant
    accepts_symbol accepts_variant
  rw [hashes_true fun _ => rfl] at h
  exact h

theorem refuses_stringMap : RefusesOn StringVariantMap env (Refuse.stringMap env) := by
  have h := refuses_hmap (env := env) (K := RStr) (V := Variant) refuses_string refuses_variant
    accepts_string accepts_variant
  rw [hashes_true fun _ => rfl] at h
  exact h

theorem refuses_filter : RefusesOn FilterSet env (Refuse.filterSet env) := by
  have h := refuses_hmap (env := env) (K := Symbol) (V := Option RStr) refuses_symbol
    (refuses_option refuses_string) accepts_symbol (accepts_option accepts_string)
  rw [hashes_true fun _ => rfl] at h
  exact h

end Amqp
