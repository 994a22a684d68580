import Verif.Proofs.RefusalLists
import Verif.Proofs.CrashFrames
/-!
# Which inputs are refused: frames, streams and messages

Support for C93.
-/
set_option autoImplicit false
namespace Amqp
open Dec
open Standard (Rep)
variable {env : Env}

theorem refuses_withBody {R : Refusal} (h : Refuses (TransferPerf.decInner env) R) :
    Refuses (Transfer.decInner env) R := by
  intro i e
  rw [← h i e]
  show (TransferPerf.decInner env >>= Transfer.withBody) i = .err e ↔ _
  rw [bind_eq_err]
  refine ⟨fun h => h.resolve_right ?_, .inl⟩
  rintro ⟨r, t, -, h⟩
  unfold Transfer.withBody at h
  split at h <;> cases h

theorem refuses_transferInner : Refuses (TransferPerf.decInner env) (Refuse.transfer env).2 :=
  refuses_inner (α := TransferPerf) (id <|
    .cons (must_req accepts_uint refuses_u32) <|
    .cons (may_opt accepts_uint refuses_u32) <|
    .cons (may_opt accepts_binary refuses_binary) <|
    .cons (may_opt accepts_uint refuses_u32) <|
    .cons (may_opt accepts_boolean refuses_bool) <|
    .cons (may_dflt accepts_boolean refuses_bool) <|
    .cons (may_opt accepts_receiverSettleMode refuses_receiverSettleMode) <|
    .cons (may_opt accepts_deliveryState refuses_deliveryState) <|
    .cons (may_dflt accepts_boolean refuses_bool) <|
    .cons (may_dflt accepts_boolean refuses_bool) <|
    .cons (may_dflt accepts_boolean refuses_bool) <|
    .nil)

theorem kind_transferBody : RefusesKind (decode Transfer) env (Refuse.transfer env) :=
  kind_described (fun _ _ => rfl) (refuses_withBody refuses_transferInner)

theorem refuses_transferBody : RefusesOn Transfer env (Refuse.one (Refuse.transfer env)) :=
  refuses_described (fun _ _ => rfl) (refuses_withBody refuses_transferInner)

/-! ## Bodies of frames -/

theorem refuses_frameBody : Refuses (Frame.decode env) (Refuse.frameBody env) := by
  obtain ⟨m0, m1, m2, m3, m4, m5, m6, m7, m8⟩ := C24_frame_members
  intro i e
  cases i with
  | nil => exact ⟨nofun, fun h => absurd rfl h.1⟩
  | cons c t =>
    refine Iff.trans (refuses_choice (dec := Frame.decode) (env := env)
      (fun c t hc => C24_frame_others.other env c t hc) (fun t e he => ?_) (fun u p d hu hs => ?_)
      (fun k hk => ?_) (c :: t) e nofun) ⟨fun h => ⟨nofun, h⟩, fun h => h.2⟩
    · show (decode Descriptor env >>= Frame.dispatch env) t = _
      rw [bind_err he]
    · refine C24_frame_others.reject env u p d hu fun x hx => ?_
      simp only [List.mem_cons, List.not_mem_nil, or_false] at hx
      rcases hx with rfl | rfl | rfl | rfl | rfl | rfl | rfl | rfl | rfl
      · exact hs (Refuse.opening env) (by simp)
      · exact hs (Refuse.beginning env) (by simp)
      · exact hs (Refuse.attach env) (by simp)
      · exact hs (Refuse.flow env) (by simp)
      · exact hs (Refuse.transfer env) (by simp)
      · exact hs (Refuse.disposition env) (by simp)
      · exact hs (Refuse.detach env) (by simp)
      · exact hs (Refuse.ending env) (by simp)
      · exact hs (Refuse.close env) (by simp)
    · simp only [List.mem_cons, List.not_mem_nil, or_false] at hk
      rcases hk with rfl | rfl | rfl | rfl | rfl | rfl | rfl | rfl | rfl
      · exact kind_alternative m0 kind_opening
      · exact kind_alternative m1 kind_beginning
      · exact kind_alternative m2 kind_attach
      · exact kind_alternative m3 kind_flow
      · exact kind_alternative m4 kind_transferBody
      · exact kind_alternative m5 kind_disposition
      · exact kind_alternative m6 kind_detach
      · exact kind_alternative m7 kind_ending
      · exact kind_alternative m8 kind_close

/-! ## Frames -/

theorem refuses_frame {β T : Type} {type : UInt8} {d : Dec β} {R : Refusal} {g : UInt16 → β → T}
    (h : Refuses d R) : Refuses (decodeFrameHeader type >>= fun c => d >>= fun b => pure (g c b))
      (Refuse.frame type R) := by
  have body : ∀ c, Refuses (d >>= fun b => pure (g c b)) R := fun c => h.bind_never fun b => Refuses.pure _
  intro i e
  by_cases hl : i.length < 4
  · have : decodeFrameHeader type i = .err (.incomplete 4) := by
      unfold decodeFrameHeader; rw [if_pos hl]
    rw [bind_err this]
    constructor
    · intro g; injection g with g; subst g; exact .short hl
    · intro g
      cases g with
      | short _ => rfl
      | _ => simp only [List.length_cons, List.length_append] at hl; omega
  · match i, hl with
    | [], hl => simp at hl
    | [_], hl => simp at hl
    | [_, _], hl => simp at hl
    | [_, _, _], hl => simp at hl
    | doff :: t :: a :: b :: rest, hl =>
      have hh := decodeFrameHeader_eq t doff a b rest type
      by_cases ht : t ≠ type
      · rw [if_pos ht] at hh
        rw [bind_err hh]
        constructor
        · intro g; injection g with g; subst g; exact .type rest ht
        · intro g
          cases g with
          | short h => exact absurd h hl
          | type _ _ => rfl
          | offset => exact absurd rfl ht
          | extended => exact absurd rfl ht
          | body => exact absurd rfl ht
      obtain rfl : t = type := Decidable.not_not.1 ht
      rw [if_neg ht] at hh
      by_cases hd : doff.toNat < 2
      · rw [if_pos hd] at hh
        rw [bind_err hh]
        constructor
        · intro g; injection g with g; subst g; exact .offset rest hd
        · intro g
          cases g with
          | short h => exact absurd h hl
          | type _ h => exact absurd rfl h
          | offset => rfl
          | extended h => omega
          | body _ _ h => omega
      rw [if_neg hd] at hh
      by_cases hx : rest.length < (doff.toNat - 2) * 4
      · rw [if_pos hx] at hh
        rw [bind_err hh, show (doff.toNat - 2) * 4 + 4 = doff.toNat * 4 - 4 by omega]
        constructor
        · intro g; injection g with g; subst g; exact .extended (by omega) (by omega)
        · intro g
          cases g with
          | short h => exact absurd h hl
          | type _ h => exact absurd rfl h
          | offset _ h => omega
          | extended => rfl
          | body _ _ h => rw [List.length_append] at hx; omega
      rw [if_neg hx] at hh
      rw [bind_ok hh, body _ _ e]
      constructor
      · intro g
        have := Refuse.frame.body (type := t) (R := R) (ext := rest.take ((doff.toNat - 2) * 4)) (doff := doff)
          a b (by rw [List.length_take]; omega) g
        rwa [List.take_append_drop] at this
      · intro g
        cases g with
        | short h => exact absurd h hl
        | type _ h => exact absurd rfl h
        | offset _ h => omega
        | extended _ h => omega
        | @body _ ext body _ _ _ h hr =>
          rw [List.drop_left' (by omega)]
          exact hr

theorem refuses_amqpFrame : Refuses (AmqpFrame.decode env) (Refuse.frame 0x00 (Refuse.frameBody env)) :=
  refuses_frame (g := AmqpFrame.mk) refuses_frameBody

theorem refuses_saslFrame : Refuses (SaslFrame.decode env) (Refuse.frame 0x01 (Refuse.saslBody env)) :=
  refuses_frame (g := fun _ => SaslFrame.mk) refuses_saslBody

/-- What the decoder leaves behind. -/
def Leaves {T : Type} (dec : Dec T) (type : UInt8) (L : Bytes → Prop) : Prop :=
  ∀ i more, more ≠ [] → ((∃ a, dec i = .ok (more, a)) ↔
    ∃ (doff a b : UInt8) (ext body : Bytes), i = doff :: type :: a :: b :: (ext ++ (body ++ more)) ∧
      doff.toNat * 4 = 8 + ext.length ∧ L body)

theorem frameBody_leaves {i more : Bytes} (hm : more ≠ []) :
    (∃ f, Frame.decode env i = .ok (more, f)) ↔ ∃ body, i = body ++ more ∧ Refuse.amqpBody env body := by
  obtain ⟨m0, m1, m2, m3, m4, m5, m6, m7, m8⟩ := C24_frame_members
  constructor
  · rintro ⟨f, h⟩
    cases i with
    | nil => cases h; exact absurd rfl hm
    | cons c t =>
      obtain ⟨rfl, e, he, u, p, d, rfl, hd, hi⟩ :=
        union_table (dec := Frame.decode) C24_frame_others (disp := Frame.dispatch) (fun _ => rfl) h
      simp only [List.mem_cons, List.not_mem_nil, or_false] at he
      rcases he with rfl | rfl | rfl | rfl | rfl | rfl | rfl | rfl | rfl
      · obtain ⟨v, rfl, b, e, hb⟩ := alternative_cases m0 accepts_opening h hd hi
        exact ⟨b, e, .Open v, hb, trivial⟩
      · obtain ⟨v, rfl, b, e, hb⟩ := alternative_cases m1 accepts_beginning h hd hi
        exact ⟨b, e, .Begin v, hb, trivial⟩
      · obtain ⟨v, rfl, b, e, hb⟩ := alternative_cases m2 accepts_attach h hd hi
        exact ⟨b, e, .Attach v, hb, trivial⟩
      · obtain ⟨v, rfl, b, e, hb⟩ := alternative_cases m3 accepts_flow h hd hi
        exact ⟨b, e, .Flow v, hb, trivial⟩
      · rw [m4 env u p d hd hi] at h
        cases hm' : decode Transfer env (0x00 :: (u ++ p)) with
        | err e => rw [hm'] at h; cases h
        | panic e => rw [hm'] at h; cases h
        | ok q =>
          obtain ⟨r', v⟩ := q
          rw [hm'] at h
          cases h
          obtain ⟨_, _, _, _, h, _⟩ := C27_decode_only env _ _ _ hm'
          exact absurd h hm
      · obtain ⟨v, rfl, b, e, hb⟩ := alternative_cases m5 accepts_disposition h hd hi
        exact ⟨b, e, .Disposition v, hb, trivial⟩
      · obtain ⟨v, rfl, b, e, hb⟩ := alternative_cases m6 accepts_detach h hd hi
        exact ⟨b, e, .Detach v, hb, trivial⟩
      · obtain ⟨v, rfl, b, e, hb⟩ := alternative_cases m7 accepts_ending h hd hi
        exact ⟨b, e, .End v, hb, trivial⟩
      · obtain ⟨v, rfl, b, e, hb⟩ := alternative_cases m8 accepts_close h hd hi
        exact ⟨b, e, .Close v, hb, trivial⟩
  · rintro ⟨b, rfl, f, h, hf⟩
    refine ⟨f, ?_⟩
    cases f with
    | Empty => exact hf.elim
    | Transfer v => exact hf.elim
    | Open v => exact frame_member m0 (by decide) h (accepts_opening.means h more)
    | Begin v => exact frame_member m1 (by decide) h (accepts_beginning.means h more)
    | Attach v => exact frame_member m2 (by decide) h (accepts_attach.means h more)
    | Flow v => exact frame_member m3 (by decide) h (accepts_flow.means h more)
    | Disposition v => exact frame_member m5 (by decide) h (accepts_disposition.means h more)
    | Detach v => exact frame_member m6 (by decide) h (accepts_detach.means h more)
    | End v => exact frame_member m7 (by decide) h (accepts_ending.means h more)
    | Close v => exact frame_member m8 (by decide) h (accepts_close.means h more)

theorem layout_make {type doff a b : UInt8} {ext body : Bytes} (h : doff.toNat * 4 = 8 + ext.length) :
    FrameLayout (doff :: type :: a :: b :: (ext ++ body)) type
      (UInt16.ofNat (256 * a.toNat + b.toNat)) body := by
  refine ⟨doff, a, b, ext, rfl, by omega, ?_⟩
  have := a.toNat_lt
  have := b.toNat_lt
  simp only [UInt16.toNat_ofNat']
  omega

theorem leaves_amqp : Leaves (AmqpFrame.decode env) 0x00 (Refuse.amqpBody env) := by
  intro i more hm
  constructor
  · rintro ⟨f, h⟩
    obtain ⟨w, ⟨doff, a, b, ext, rfl, hd, -⟩, hf⟩ := C25_amqp_only env _ _ _ h
    obtain ⟨body, rfl, hb⟩ := (frameBody_leaves hm).1 ⟨_, hf⟩
    exact ⟨doff, a, b, ext, body, rfl, by omega, hb⟩
  · rintro ⟨doff, a, b, ext, body, rfl, hd, hb⟩
    obtain ⟨f, hf⟩ := (frameBody_leaves (env := env) hm).2 ⟨body, rfl, hb⟩
    exact ⟨_, by rw [C25_amqp env _ _ _ (layout_make hd), hf]⟩

theorem leaves_sasl : Leaves (SaslFrame.decode env) 0x01 (Refuse.saslBodyRead env) := by
  intro i more hm
  constructor
  · rintro ⟨f, h⟩
    obtain ⟨w, ch, ⟨doff, a, b, ext, rfl, hd, -⟩, hf⟩ := C25_sasl_only env _ _ _ h
    obtain ⟨body, rfl, hb⟩ := (accepts_saslBody _ _ _).1 hf
    exact ⟨doff, a, b, ext, body, rfl, by omega, _, hb⟩
  · rintro ⟨doff, a, b, ext, body, rfl, hd, f, hb⟩
    exact ⟨_, by rw [C25_sasl env _ _ _ (layout_make hd), (accepts_saslBody _ _ _).2 ⟨body, rfl, hb⟩]⟩

/-! ## Streams -/

section
variable {T : Type} {dec : Dec T} {type : UInt8} {L : Bytes → Prop} {R : Refusal}

theorem frameStep_err {n : Nat} {src : Bytes} {e : CodecError} :
    (frameStep dec n src).answer = .err e ↔ n ≤ src.length ∧
      ((∃ e', e = .parse e' ∧ dec (src.take n) = .err e') ∨
        (e = .unparsedBytesLeft ∧ ∃ more, more ≠ [] ∧ ∃ a, dec (src.take n) = .ok (more, a))) := by
  unfold frameStep
  by_cases h : src.length < n
  · rw [if_pos h]
    exact ⟨nofun, fun g => by omega⟩
  rw [if_neg h]
  have h : n ≤ src.length := by omega
  simp only [h, true_and]
  cases dec (src.take n) with
  | err e' =>
    constructor
    · intro g; injection g with g; exact .inl ⟨e', g.symm, rfl⟩
    · rintro (⟨_, rfl, g⟩ | ⟨_, _, _, _, g⟩)
      · injection g with g; subst g; rfl
      · cases g
  | panic p =>
    constructor
    · nofun
    · rintro (⟨_, _, g⟩ | ⟨_, _, _, _, g⟩) <;> cases g
  | ok q =>
    obtain ⟨r, a⟩ := q
    cases r with
    | nil =>
      constructor
      · nofun
      · rintro (⟨_, _, g⟩ | ⟨_, _, hm, _, g⟩)
        · cases g
        · cases g; exact absurd rfl hm
    | cons c t =>
      constructor
      · intro g; injection g with g; exact .inr ⟨g.symm, c :: t, nofun, a, rfl⟩
      · rintro (⟨_, _, g⟩ | ⟨rfl, _⟩)
        · cases g
        · rfl

/-- A frame that is refused, or goes on after what is read. -/
theorem frameStep_refuses (h : Refuses dec (Refuse.frame type R)) (hL : Leaves dec type L) {n : Nat}
    {src : Bytes} {e : CodecError} : (frameStep dec n src).answer = .err e ↔
      ∃ f rest, src = f ++ rest ∧ f.length = n ∧ Refuse.whole type L R e f := by
  rw [frameStep_err]
  constructor
  · rintro ⟨hn, hc⟩
    refine ⟨_, src.drop n, (List.take_append_drop n _).symm, by rw [List.length_take]; omega, ?_⟩
    rcases hc with ⟨e', rfl, hd⟩ | ⟨rfl, more, hm, hd⟩
    · exact .frame ((h _ _).1 hd)
    · obtain ⟨doff, a, b, ext, body, he, hd, hb⟩ := (hL _ _ hm).1 hd
      rw [he]
      exact .left a b hd hb hm
  · rintro ⟨f, rest, rfl, rfl, hw⟩
    rw [List.take_left]
    refine ⟨by simp, ?_⟩
    cases hw with
    | frame hf => exact .inl ⟨_, rfl, (h _ _).2 hf⟩
    | left a b hd hb hm => exact .inr ⟨rfl, _, hm, (hL _ _ hm).2 ⟨_, a, b, _, _, rfl, hd, hb⟩⟩

/-- One call of the codec. -/
theorem refuses_stream (h : Refuses dec (Refuse.frame type R)) (hL : Leaves dec type L) (src : Bytes)
    (hl : src.length < 2 ^ 63) (e : CodecError) :
    (codecDecode env dec .frameHeader src).answer = .err e ↔ Refuse.stream type L R e src := by
  constructor
  · intro hc
    unfold codecDecode headerLen at hc
    simp only at hc
    by_cases c1 : src.length < 8
    · rw [if_pos c1] at hc; cases hc
    rw [if_neg c1] at hc
    by_cases c2 : beDec (src.take 4) < 4 ∧ env.overflowChecks = true
    · rw [if_pos c2] at hc; cases hc
    rw [if_neg c2] at hc
    by_cases c3 : src.length < beDec (src.take 4)
    · rw [if_pos c3] at hc; cases hc
    rw [if_neg c3] at hc
    obtain ⟨f, rest, h1, h2, h3⟩ := (frameStep_refuses h hL).1 hc
    have h4 : src.length = 4 + (f.length + rest.length) := by
      have := congrArg List.length h1
      rw [List.length_drop, List.length_append] at this
      omega
    by_cases c4 : beDec (src.take 4) < 4
    · rw [if_pos c4] at h2; omega
    rw [if_neg c4] at h2
    rw [← List.take_append_drop 4 src, h1]
    refine .mk rest ⟨by rw [List.length_take]; omega, by rw [unsigned_eq]; omega⟩ ?_ h3
    rw [List.length_append]; omega
  · intro hR
    unfold codecDecode headerLen
    simp only
    cases hR with
    | @mk s f rest hs hf hw =>
      have hb : beDec s = 4 + f.length := by rw [← unsigned_eq, hs.2]
      rw [if_neg (by rw [List.length_append, hs.1]; omega), List.take_left' hs.1,
        List.drop_left' hs.1, hb, if_neg (by omega),
        if_neg (by simp only [List.length_append, hs.1]; omega), if_neg (by omega),
        show 4 + f.length - 4 = f.length by omega]
      exact (frameStep_refuses h hL).2 ⟨f, rest, rfl, rfl, hw⟩

theorem codecDecode_state {st : DecodeState} {src rest : Bytes} {x : T}
    (hc : codecDecode env dec .frameHeader src = ⟨st, rest, .some x⟩) : st = .frameHeader := by
  unfold codecDecode headerLen at hc
  simp only at hc
  by_cases c1 : src.length < 8
  · rw [if_pos c1] at hc; cases hc
  rw [if_neg c1] at hc
  by_cases c2 : beDec (src.take 4) < 4 ∧ env.overflowChecks = true
  · rw [if_pos c2] at hc; cases hc
  rw [if_neg c2] at hc
  by_cases c3 : src.length < beDec (src.take 4)
  · rw [if_pos c3] at hc; cases hc
  rw [if_neg c3] at hc
  exact (frameStep_some hc).1

/-- A stream, however it arrives. -/
theorem refuses_arrivals {F : Rep T} (ht : TakesFrames env dec F) (h : Refuses dec (Refuse.frame type R))
    (hL : Leaves dec type L)
    (chunks : List Bytes) (hl : chunks.flatten.length < 2 ^ 63) (e : CodecError) (l : List T) :
    ((receive env dec .frameHeader [] chunks).1 = l ∧
      (receive env dec .frameHeader [] chunks).2.answer = .err e) ↔
      ∃ (ws : List (T × Bytes)) (rest : Bytes), chunks.flatten = ws.flatMap Prod.snd ++ rest ∧
        (∀ w ∈ ws, F w.1 w.2) ∧ l = ws.map Prod.fst ∧ Refuse.stream type L R e rest := by
  rw [receive_eq, List.nil_append]
  generalize chunks.flatten = src at hl
  constructor
  · rintro ⟨rfl, hp⟩
    obtain ⟨ws, rest, h1, h2, h3, -⟩ := drain_split ht src hl
    rw [h3] at hp ⊢
    refine ⟨ws, rest, h1, h2, rfl, (refuses_stream h hL rest ?_ e).1 hp⟩
    rw [h1, List.length_append] at hl
    omega
  · rintro ⟨ws, rest, rfl, hw, rfl, hC⟩
    suffices hd : drain env dec .frameHeader (ws.flatMap Prod.snd ++ rest) =
        (ws.map Prod.fst, codecDecode env dec .frameHeader rest) by
      rw [hd]
      refine ⟨rfl, (refuses_stream h hL rest ?_ e).2 hC⟩
      rw [List.length_append] at hl
      omega
    induction ws with
    | nil =>
      refine drain_stop fun a ha => ?_
      have := (refuses_stream (env := env) h hL rest hl e).2 hC
      rw [List.flatMap_nil, List.nil_append] at ha
      rw [ha] at this
      cases this
    | cons w ws ih =>
      rw [List.flatMap_cons, List.append_assoc] at hl ⊢
      have h1 := (ht _ _ w.1 hl).2 ⟨w.2, rfl, hw w (by simp)⟩
      rw [drain_some h1, ih (by rw [List.length_append] at hl; omega) fun q hq => hw q (by simp [hq])]
      rfl

end

/-! ## Messages -/

theorem refuses_message {AP : Type} (conv : StringVariantMap → AP) :
    Refuses (Message.decodeWith env conv) (Refuse.message env) := by
  rw [Message.decodeWith_eq]
  suffices h : ∀ (m : Message AP) (i : Bytes) (e : ParseError),
      Message.resume env conv m i = .err e ↔ Refuse.message env e i from h _
  intro m i
  induction hn : i.length using Nat.strongRecOn generalizing i m with
  | ind n ih =>
    intro p
    rw [Message.resume_eq]
    constructor
    · intro h
      cases hd : decode Section env i with
      | panic e => rw [hd] at h; cases h
      | err q =>
        rw [hd] at h
        injection h with h; subst h
        exact .mk [] (by simp) (.inl rfl) ((refuses_messageSection _ _).1 hd)
      | ok q =>
        obtain ⟨buf, sec⟩ := q
        rw [hd] at h
        simp only at h
        have hp := progress_decode (fun fmt => LawfulDec.loc env fmt) _ _ _ hd
        obtain ⟨w, rfl, hw⟩ := loc_decode env _ _ _ hd
        split at h
        · cases h
        · rename_i hne
          have := (ih buf.length (by omega) _ buf rfl p).1 h
          cases this with
          | @mk good e tail hg ho ht =>
            have hw : Lenient.messageSection (.lenient env) sec w :=
              (Takes.reads accepts_messageSection).1 hw
            have := Refuse.message.mk (env := env) ((sec, w) :: good) (by
              intro g hg'
              rcases List.mem_cons.1 hg' with rfl | hg'
              · exact hw
              · exact hg g hg') (.inr (by
                rcases ho with rfl | ho
                · rintro rfl; exact hne (by simp)
                · exact ho)) ht
            rwa [List.flatMap_cons, List.append_assoc] at this
    · intro h
      cases h with
      | @mk good p tail hg ho ht =>
        cases good with
        | nil =>
          rw [List.flatMap_nil, List.nil_append, (refuses_messageSection _ _).2 ht]
        | cons g good =>
          have hr := accepts_messageSection.means (hg g (by simp))
          have hb := hr (good.flatMap Prod.snd ++ tail)
          have hb' : decode Section env (g.2 ++ (good.flatMap Prod.snd ++ tail)) =
            .ok (good.flatMap Prod.snd ++ tail, g.1) := hb
          rw [List.flatMap_cons, List.append_assoc, hb']
          simp only
          have htne : tail ≠ [] := ho.resolve_left nofun
          rw [if_neg (by simp [htne])]
          have hp := progress_decode (fun fmt => LawfulDec.loc env fmt) _ _ _ hb'
          refine (ih _ ?_ _ _ rfl p).2 (.mk good (fun q hq => hg q (by simp [hq])) (.inr htne) ht)
          rw [← hn, List.flatMap_cons, List.append_assoc]
          exact hp

end Amqp
