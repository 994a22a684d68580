import Verif.Proofs.ErrorInstances
/-!
# Errors of frames and messages; when more input helps
-/
set_option autoImplicit false
namespace Amqp
open Dec

/-! ## Frames -/

theorem Frame.tells (env : Env) (j : Bytes) :
    Tells (Faulty.fields Frame) (Faulty.options Frame) j (fun _ => True) (Frame.decode env) := by
  intro i hi
  cases i with
  | nil => exact ⟨hi, trivial⟩
  | cons c t =>
    exact (tells_formatCode.bind fun fmt hf => tells_matched hf fun d hd =>
      Frame.tells_dispatch env j d hd) (c :: t) hi

theorem Frame.final (env : Env) : Final (Frame.decode env) := by
  intro i e h he more
  cases i with
  | nil => cases h
  | cons c t =>
    exact (Final.readU8.bind Local.readU8 fun fmt => Final.validateCode (fmt := fmt)
      ((final_decode (α := Descriptor) env).bind (loc_decode env) fun d =>
        Frame.final_dispatch env d)) (c :: t) e h he more

/-- What a frame header decoder answers. -/
theorem frameHeader_err {t : UInt8} {i : Bytes} {e : ParseError}
    (h : decodeFrameHeader t i = .err e) :
    (∃ n, e = .incomplete n ∧ 0 < n ∧ n < 2 ^ 32) ∨
    ∃ doff u c1 c2 r, i = doff :: u :: c1 :: c2 :: r ∧
      ((u ≠ t ∧ e = .unexpectedFrameType u) ∨ (u = t ∧ doff.toNat < 2 ∧ e = .invalidSize)) := by
  unfold decodeFrameHeader at h
  by_cases hl : i.length < 4
  · rw [if_pos hl] at h
    injection h with h
    exact .inl ⟨4, h.symm, by decide, by decide⟩
  rw [if_neg hl] at h
  match i, hl with
  | doff :: u :: c1 :: c2 :: r, _ =>
    simp only [List.getD_cons_zero, List.getD_cons_succ] at h
    by_cases hu : u = t
    · rw [if_neg (by simpa using hu)] at h
      by_cases hd : doff.toNat * 4 < headerLen
      · rw [if_pos hd] at h
        injection h with h
        exact .inr ⟨doff, u, c1, c2, r, rfl, .inr ⟨hu, by unfold headerLen at hd; omega, h.symm⟩⟩
      · rw [if_neg hd] at h
        split at h
        · injection h with h
          refine .inl ⟨_, h.symm, by omega, ?_⟩
          have := doff.toNat_lt
          unfold headerLen
          omega
        · cases h
    · rw [if_pos hu] at h
      injection h with h
      exact .inr ⟨doff, u, c1, c2, r, rfl, .inl ⟨hu, h.symm⟩⟩
  | [], h' => exact absurd (by simp) h'
  | [_], h' => exact absurd (by simp) h'
  | [_, _], h' => exact absurd (by simp) h'
  | [_, _, _], h' => exact absurd (by simp) h'

theorem explains_header {t : UInt8} {F : FieldTable} {O : OptionTable} {i : Bytes} {e : ParseError}
    (h : decodeFrameHeader t i = .err e) : ExplainsFrame t F O i e := by
  rcases frameHeader_err h with ⟨n, rfl, h1, h2⟩ | ⟨doff, u, c1, c2, r, rfl, ⟨h1, rfl⟩ | ⟨h1, h2, rfl⟩⟩
  · exact ⟨h1, h2⟩
  · exact ⟨h1, doff, _, rfl⟩
  · exact ⟨doff, _, rfl, h2⟩

theorem ExplainsFrame.of {t : UInt8} {F : FieldTable} {O : OptionTable} {i : Bytes} {e : ParseError}
    (h : Explains F O i e) : ExplainsFrame t F O i e := by
  cases e with
  | invalidSize => exact h.elim
  | unexpectedFrameType u => exact h.elim
  | _ => exact h

theorem frame_explained {α β : Type} {t : UInt8} {F : FieldTable} {O : OptionTable} {d : Dec α}
    {f : UInt16 → α → β} (hd : ∀ j, Tells F O j (fun _ => True) d) {i : Bytes} {e : ParseError}
    (h : (decodeFrameHeader t >>= fun c => d >>= fun a => pure (f c a)) i = .err e) :
    ExplainsFrame t F O i e := by
  rw [run_bind] at h
  cases h1 : decodeFrameHeader t i with
  | err e' => rw [h1] at h; injection h with h; subst h; exact explains_header h1
  | panic p => rw [h1] at h; cases h
  | ok q =>
    obtain ⟨r, c⟩ := q
    rw [h1] at h
    obtain ⟨w, rfl⟩ := frameHeader_ok h1
    have h2 : (d >>= fun a => pure (f c a)) r = .err e := h
    rw [run_bind] at h2
    have h3 := hd (w ++ r) r (List.suffix_append w r).isInfix
    cases h4 : d r with
    | err e' => rw [h4] at h2 h3; injection h2 with h2; subst h2; exact ExplainsFrame.of h3
    | panic p => rw [h4] at h2; cases h2
    | ok q => obtain ⟨r', a⟩ := q; rw [h4] at h2; cases h2

theorem local_frameHeader (t : UInt8) : Local (decodeFrameHeader t) := by
  intro i r c h
  have h0 := h
  unfold decodeFrameHeader at h
  by_cases hl : i.length < 4
  · rw [if_pos hl] at h; cases h
  rw [if_neg hl] at h
  simp only at h
  split at h
  · cases h
  rename_i ht
  split at h
  · cases h
  rename_i hd
  split at h
  · cases h
  rename_i hn
  injection h with h; injection h with h1 h2
  subst h1 h2
  refine ⟨i.take ((i.getD 0 0).toNat * 4 - headerLen + 4), (List.take_append_drop _ _).symm, fun s => ?_⟩
  generalize hk : (i.getD 0 0).toNat * 4 - headerLen + 4 = k at *
  have hl4 : (i.take k).length = k := by rw [List.length_take]; omega
  have hg : ∀ m, m < 4 → (i.take k ++ s).getD m 0 = i.getD m 0 := by
    intro m hm
    rw [List.getD_eq_getElem?_getD, List.getElem?_append_left (by omega), List.getElem?_take,
      if_pos (by omega), ← List.getD_eq_getElem?_getD]
  unfold decodeFrameHeader
  rw [if_neg (by rw [List.length_append]; omega)]
  simp only
  rw [hg 0 (by omega), hg 1 (by omega), if_neg ht, if_neg hd, hk,
    if_neg (by rw [List.length_append]; omega)]
  congr 2
  · rw [List.drop_append_of_le_length (by omega), List.drop_eq_nil_of_le (by omega)]; rfl
  · congr 2
    rw [List.drop_append_of_le_length (by omega), List.take_append_of_le_length
      (by rw [List.length_drop]; omega), List.drop_take, List.take_take, Nat.min_eq_left (by omega)]

theorem final_frameHeader (t : UInt8) : Final (decodeFrameHeader t) := by
  intro i e h he more
  rcases frameHeader_err h with ⟨n, rfl, -⟩ | ⟨doff, u, c1, c2, r, rfl, ⟨h1, rfl⟩ | ⟨h1, h2, rfl⟩⟩
  · cases he
  · unfold decodeFrameHeader
    rw [if_neg (by simp)]
    simp [h1]
  · unfold decodeFrameHeader
    rw [if_neg (by simp)]
    simp only [List.cons_append, List.getD_cons_zero, List.getD_cons_succ]
    rw [if_neg (by simpa using h1), if_pos (by unfold headerLen; omega)]

theorem AmqpFrame.final (env : Env) : Final (AmqpFrame.decode env) := by
  refine (final_frameHeader _).bind (local_frameHeader _) fun c => ?_
  have e : (Frame.decode env >>= fun f => pure (⟨c, f⟩ : AmqpFrame)) =
      (fun f => (⟨c, f⟩ : AmqpFrame)) <$> Frame.decode env := by
    funext i
    rw [run_bind, run_map]
    cases Frame.decode env i <;> rfl
  rw [e]
  exact (Frame.final env).map _

theorem SaslFrame.final (env : Env) : Final (SaslFrame.decode env) :=
  (final_frameHeader _).bind (local_frameHeader _) fun _ =>
    (final_decode (α := SaslFrameBody) env).bind (loc_decode env) fun _ => Final.pure _

/-! ## Messages -/

theorem Message.loop_tells {AP : Type} (env : Env) (conv : StringVariantMap → AP) (j : Bytes) :
    ∀ (n : Nat) (m : Message AP) (i : Bytes) (e : ParseError), i <:+: j →
    Message.loop env conv n m i = .err e → Explains [] [] j e
  | 0, _, _, _, _, h => by cases h
  | n + 1, m, i, e, hi, h => by
    simp only [Message.loop] at h
    have h0 := tells_decode (α := Section) env j i hi
    cases hd : decode Section env i with
    | err e' => rw [hd] at h h0; injection h with h; subst h; exact h0
    | panic q => rw [hd] at h; cases h
    | ok q =>
      obtain ⟨buf, sec⟩ := q
      rw [hd] at h h0
      simp only at h
      split at h
      · cases h
      · exact Message.loop_tells env conv j n _ _ e h0.1 h

theorem Message.resume_final {AP : Type} (env : Env) (conv : StringVariantMap → AP) :
    ∀ (n : Nat) (m : Message AP) (i : Bytes), i.length < n → ∀ e, resume env conv m i = .err e →
    e.isIncomplete = false → ∀ more, resume env conv m (i ++ more) = .err e
  | 0, _, _, hn => absurd hn (Nat.not_lt_zero _)
  | n + 1, m, i, hn => by
    intro e h he more
    rw [resume_eq] at h ⊢
    cases hd : decode Section env i with
    | err e' =>
      rw [hd] at h; injection h with h; subst h
      rw [final_decode (α := Section) env i e' hd he more]
    | panic q => rw [hd] at h; cases h
    | ok q =>
      obtain ⟨buf, sec⟩ := q
      rw [hd] at h
      simp only at h
      have hp := progress_decode (fun fmt => LawfulDec.loc env fmt) _ _ _ hd
      rw [Final.ext_ok (loc_decode env) hd more]
      simp only
      split at h
      · cases h
      · rename_i hb
        rw [if_neg (by cases buf <;> simp_all)]
        exact Message.resume_final env conv n _ buf (by omega) e h he more

theorem Message.final {AP : Type} (env : Env) (conv : StringVariantMap → AP) :
    Final (Message.decodeWith env conv) := fun i e h he more =>
  Message.resume_final env conv _ _ i (Nat.lt_succ_self _) e h he more

/-! ## When more input helps -/

namespace Hopeful
variable {α β : Type}

theorem of_done {d : Dec α} (h : ∀ i n, d i ≠ .err (.incomplete n)) : Hopeful d :=
  fun i n h1 => absurd h1 (h i n)

theorem pure (a : α) : Hopeful (Pure.pure a : Dec α) := of_done fun _ _ h => by cases h
theorem fail {e : ParseError} (he : e.isIncomplete = false) : Hopeful (Dec.fail e : Dec α) :=
  of_done fun _ _ h => by injection h with h; subst h; cases he
theorem abort (p : Panic) : Hopeful (Dec.abort p : Dec α) := of_done fun _ _ h => by cases h

theorem ite {c : Prop} [Decidable c] {x y : Dec α} (hx : Hopeful x) (hy : Hopeful y) :
    Hopeful (if c then x else y) := by split <;> assumption

theorem takeN (n : Nat) : Hopeful (Amqp.takeN n) := by
  intro i _ _
  refine ⟨List.replicate n 0, fun m h => ?_⟩
  unfold Amqp.takeN at h
  rw [if_neg (by simp)] at h
  cases h

theorem readU8 : Hopeful Amqp.readU8 := by
  intro i _ _
  refine ⟨[0], fun m h => ?_⟩
  cases i <;> cases h

theorem indexU8 : Hopeful Amqp.indexU8 := of_done fun i n h => by cases i <;> cases h

/-- After the first part, the second may ask again. -/
theorem bind {d : Dec α} {f : α → Dec β} (hd : Hopeful d) (hl : Local d)
    (hf : ∀ a, Hopeful (f a)) : Hopeful (d >>= f) := by
  have go : ∀ i r a, d i = .ok (r, a) → ∃ more, ∀ m, (d >>= f) (i ++ more) ≠ .err (.incomplete m) := by
    intro i r a h
    cases h1 : f a r with
    | err e =>
      cases he : e.isIncomplete with
      | true =>
        cases e with
        | incomplete n =>
          obtain ⟨more, hm⟩ := hf a r n h1
          refine ⟨more, fun m h2 => hm m ?_⟩
          rw [run_bind, Final.ext_ok hl h] at h2
          exact h2
        | _ => cases he
      | false =>
        refine ⟨[], fun m h2 => ?_⟩
        rw [List.append_nil, run_bind, h] at h2
        have h2' : f a r = .err (.incomplete m) := h2
        rw [h1] at h2'; injection h2' with h2'; subst h2'; cases he
    | ok q =>
      refine ⟨[], fun m h2 => ?_⟩
      rw [List.append_nil, run_bind, h] at h2
      have h2' : f a r = .err (.incomplete m) := h2
      rw [h1] at h2'; cases h2'
    | panic p =>
      refine ⟨[], fun m h2 => ?_⟩
      rw [List.append_nil, run_bind, h] at h2
      have h2' : f a r = .err (.incomplete m) := h2
      rw [h1] at h2'; cases h2'
  intro i n h
  rw [run_bind] at h
  cases h1 : d i with
  | ok q => obtain ⟨r, a⟩ := q; exact go i r a h1
  | panic p => rw [h1] at h; cases h
  | err e =>
    rw [h1] at h
    injection h with h; subst h
    obtain ⟨more, hm⟩ := hd i n h1
    cases h2 : d (i ++ more) with
    | ok q =>
      obtain ⟨r, a⟩ := q
      obtain ⟨more', hm'⟩ := go (i ++ more) r a h2
      exact ⟨more ++ more', by rw [← List.append_assoc]; exact hm'⟩
    | panic p => exact ⟨more, fun m h3 => by rw [run_bind, h2] at h3; cases h3⟩
    | err e =>
      refine ⟨more, fun m h3 => ?_⟩
      rw [run_bind, h2] at h3
      injection h3 with h3; subst h3
      exact hm m h2

theorem map {d : Dec α} (f : α → β) (hd : Hopeful d) : Hopeful (f <$> d) := by
  intro i n h
  rw [run_map] at h
  cases h1 : d i with
  | ok p => rw [h1] at h; cases h
  | panic p => rw [h1] at h; cases h
  | err e =>
    rw [h1] at h; injection h with h; subst h
    obtain ⟨more, hm⟩ := hd i n h1
    refine ⟨more, fun m h3 => ?_⟩
    rw [run_map] at h3
    cases h2 : d (i ++ more) with
    | ok p => rw [h2] at h3; cases h3
    | panic p => rw [h2] at h3; cases h3
    | err e => rw [h2] at h3; injection h3 with h3; subst h3; exact hm m h2

theorem readBE (k : Nat) : Hopeful (Amqp.readBE k) := (Hopeful.takeN k).map _
theorem readBytesU8 : Hopeful Amqp.readBytesU8 :=
  Hopeful.readU8.bind Local.readU8 fun _ => Hopeful.takeN _
theorem readBytesU32 : Hopeful Amqp.readBytesU32 :=
  (Hopeful.readBE 4).bind (Local.readBE 4) fun _ => Hopeful.takeN _
theorem fromUtf8 (b : Bytes) : Hopeful (Amqp.fromUtf8 b) := by
  unfold Amqp.fromUtf8
  split
  · exact Hopeful.pure _
  · exact Hopeful.fail rfl
theorem validateCode {fmt code : UInt8} {d : Dec α} (h : Hopeful d) :
    Hopeful (Amqp.validateCode fmt code d) := Hopeful.ite (Hopeful.fail rfl) h
theorem decodeN {d : Dec α} (h : Hopeful d) (hl : Local d) : ∀ n, Hopeful (Amqp.decodeN d n)
  | 0 => Hopeful.pure _
  | n + 1 => h.bind hl fun _ => (Hopeful.decodeN h hl n).bind (Local.decodeN hl n) fun _ =>
      Hopeful.pure _
theorem subChecked (env : Env) (b x y : Nat) : Hopeful (Amqp.subChecked env b x y) :=
  Hopeful.ite (Hopeful.pure _) (Hopeful.ite (Hopeful.abort _) (Hopeful.pure _))
theorem compound8 (env : Env) : Hopeful (decodeCompound8 env) :=
  (Hopeful.takeN _).bind (Local.takeN _) fun _ =>
    (Hopeful.subChecked _ _ _ _).bind (Local.subChecked _ _ _ _) fun _ => Hopeful.pure _
theorem compound32 (env : Env) : Hopeful (decodeCompound32 env) :=
  (Hopeful.takeN _).bind (Local.takeN _) fun _ =>
    (Hopeful.subChecked _ _ _ _).bind (Local.subChecked _ _ _ _) fun _ => Hopeful.pure _
theorem arrayHeader (env : Env) (fmt : UInt8) : Hopeful (decodeArrayHeader env fmt) :=
  Hopeful.ite (Hopeful.compound8 _) (Hopeful.ite (Hopeful.compound32 _) (Hopeful.fail rfl))
end Hopeful

class HopefulDec (α : Type) [DecodeF α] : Prop where
  hopeful : ∀ env fmt, Hopeful (decF (α := α) env fmt)

theorem hopeful_decode {α : Type} [DecodeF α] [HopefulDec α] (env : Env) : Hopeful (decode α env) :=
  Hopeful.readU8.bind Local.readU8 fun fmt => HopefulDec.hopeful env fmt

instance : HopefulDec Bool := ⟨fun _ _ => Hopeful.ite (Hopeful.readU8.map _)
  (Hopeful.ite (Hopeful.pure _) (Hopeful.ite (Hopeful.pure _) (Hopeful.fail rfl)))⟩
instance : HopefulDec UInt8 := ⟨fun _ _ => Hopeful.readU8.validateCode⟩
instance : HopefulDec UInt16 := ⟨fun _ _ => ((Hopeful.readBE _).map _).validateCode⟩
instance : HopefulDec UInt32 := ⟨fun _ _ => Hopeful.ite ((Hopeful.readBE _).map _)
  (Hopeful.ite (Hopeful.readU8.map _) (Hopeful.ite (Hopeful.pure _) (Hopeful.fail rfl)))⟩
instance : HopefulDec UInt64 := ⟨fun _ _ => Hopeful.ite ((Hopeful.readBE _).map _)
  (Hopeful.ite (Hopeful.readU8.map _) (Hopeful.ite (Hopeful.pure _) (Hopeful.fail rfl)))⟩
instance : HopefulDec Int8 := ⟨fun _ _ => (Hopeful.readU8.map _).validateCode⟩
instance : HopefulDec Int16 := ⟨fun _ _ => ((Hopeful.readBE _).map _).validateCode⟩
instance : HopefulDec Int32 := ⟨fun _ _ => Hopeful.ite ((Hopeful.readBE _).map _)
  (Hopeful.ite ((Hopeful.readU8.map _).map _) (Hopeful.fail rfl))⟩
instance : HopefulDec Int64 := ⟨fun _ _ => Hopeful.ite ((Hopeful.readBE _).map _)
  (Hopeful.ite ((Hopeful.readU8.map _).map _) (Hopeful.fail rfl))⟩
instance : HopefulDec F32 := ⟨fun _ _ => ((Hopeful.readBE _).map _).validateCode⟩
instance : HopefulDec F64 := ⟨fun _ _ => ((Hopeful.readBE _).map _).validateCode⟩
instance : HopefulDec Char := ⟨fun _ _ => ((Hopeful.readBE _).bind (Local.readBE _) fun n => by
  split
  · exact Hopeful.pure _
  · exact Hopeful.fail rfl).validateCode⟩
theorem hopeful_utc (s : Int) (n : Nat) : Hopeful (utcTimestamp s n) := by
  unfold utcTimestamp
  split
  · exact Hopeful.pure _
  · exact Hopeful.abort _
instance : HopefulDec DateTime := ⟨fun _ _ => ((Hopeful.readBE _).bind (Local.readBE _) fun _ =>
  Hopeful.ite (hopeful_utc _ _) (hopeful_utc _ _)).validateCode⟩
instance : HopefulDec Uuid := ⟨fun _ _ => ((Hopeful.takeN _).bind (Local.takeN _) fun b => by
  unfold uuidOf
  split
  · exact Hopeful.pure _
  · exact Hopeful.abort _).validateCode⟩
instance : HopefulDec Binary := ⟨fun _ _ => Hopeful.ite (Hopeful.readBytesU8.map _)
  (Hopeful.ite (Hopeful.readBytesU32.map _) (Hopeful.fail rfl))⟩
theorem hopeful_text8 : Hopeful (readBytesU8 >>= fromUtf8) :=
  Hopeful.readBytesU8.bind Local.readBytesU8 fun _ => Hopeful.fromUtf8 _
theorem hopeful_text32 : Hopeful (readBytesU32 >>= fromUtf8) :=
  Hopeful.readBytesU32.bind Local.readBytesU32 fun _ => Hopeful.fromUtf8 _
instance : HopefulDec RStr := ⟨fun _ _ =>
  Hopeful.ite hopeful_text8 (Hopeful.ite hopeful_text32 (Hopeful.fail rfl))⟩
instance : HopefulDec Symbol := ⟨fun _ _ =>
  Hopeful.ite (hopeful_text8.map _) (Hopeful.ite (hopeful_text32.map _) (Hopeful.fail rfl))⟩
instance {α : Type} [DecodeF α] [HopefulDec α] : HopefulDec (Option α) := ⟨fun env fmt =>
  Hopeful.ite (Hopeful.pure _) ((HopefulDec.hopeful env fmt).map _)⟩
instance : HopefulDec Descriptor := ⟨fun env fmt =>
  have u := (HopefulDec.hopeful (α := UInt64) env fmt).map Descriptor.ulong
  have s := (HopefulDec.hopeful (α := Symbol) env fmt).map Descriptor.symbol
  Hopeful.ite u (Hopeful.ite u (Hopeful.ite s (Hopeful.ite s (Hopeful.fail rfl))))⟩
instance {α : Type} [DecodeF α] [HopefulDec α] [LawfulDec α] : HopefulDec (Vec α) := ⟨fun env _ =>
  (Hopeful.arrayHeader _ _).bind (Local.decodeArrayHeader _ _) fun _ =>
    Hopeful.indexU8.bind Local.indexU8 fun c =>
      (Hopeful.decodeN (HopefulDec.hopeful (α := α) env c) (LawfulDec.loc env c) _).bind
        (Local.decodeN (LawfulDec.loc env c) _) fun _ => Hopeful.pure _⟩
instance {α : Type} [DecodeF α] [HopefulDec α] [LawfulDec α] : HopefulDec (Multiple α) :=
  ⟨fun env fmt => Hopeful.ite ((HopefulDec.hopeful (α := Vec α) env fmt).map _)
    ((HopefulDec.hopeful (α := α) env fmt).map _)⟩

/-- Enumerations never ask for more of their own accord. -/
theorem hopeful_enum {α β : Type} [DecodeF β] [HopefulDec β] [LawfulDec β]
    {tryFrom : β → Res ParseError α} (ht : ∀ b n, tryFrom b ≠ .err (.incomplete n)) (env : Env)
    (fmt : UInt8) : Hopeful (decodeEnum tryFrom env fmt) :=
  (HopefulDec.hopeful (α := β) env fmt).bind (LawfulDec.loc env fmt) fun b => by
    cases h : tryFrom b with
    | ok a => exact Hopeful.pure _
    | err e =>
      refine Hopeful.of_done fun i n h1 => ht b n ?_
      injection h1 with h1
      rw [h, h1]
    | panic p => exact Hopeful.abort _

instance : HopefulDec Role := ⟨hopeful_enum fun b n h => by
  unfold Role.tryFrom at h
  iterate 2 replace h := (ite_ok_err h).2
  cases h⟩
instance : HopefulDec SenderSettleMode := ⟨hopeful_enum fun b n h => by
  unfold SenderSettleMode.tryFrom at h
  iterate 3 replace h := (ite_ok_err h).2
  cases h⟩
instance : HopefulDec ReceiverSettleMode := ⟨hopeful_enum fun b n h => by
  unfold ReceiverSettleMode.tryFrom at h
  iterate 2 replace h := (ite_ok_err h).2
  cases h⟩
instance : HopefulDec AmqpError := ⟨hopeful_enum fun b n h => by
  unfold AmqpError.tryFrom at h
  iterate 13 replace h := (ite_ok_err h).2
  cases h⟩
instance : HopefulDec ConnectionError := ⟨hopeful_enum fun b n h => by
  unfold ConnectionError.tryFrom at h
  iterate 3 replace h := (ite_ok_err h).2
  cases h⟩
instance : HopefulDec SessionError := ⟨hopeful_enum fun b n h => by
  unfold SessionError.tryFrom at h
  iterate 4 replace h := (ite_ok_err h).2
  cases h⟩
instance : HopefulDec LinkError := ⟨hopeful_enum fun b n h => by
  unfold LinkError.tryFrom at h
  iterate 5 replace h := (ite_ok_err h).2
  cases h⟩
instance : HopefulDec SaslCode := ⟨hopeful_enum fun b n h => by
  unfold SaslCode.tryFrom at h
  iterate 5 replace h := (ite_ok_err h).2
  cases h⟩
instance : HopefulDec TerminusDurability := ⟨hopeful_enum fun b n h => by
  unfold TerminusDurability.tryFrom at h
  iterate 3 replace h := (ite_ok_err h).2
  cases h⟩
instance : HopefulDec TerminusExpiryPolicy := ⟨hopeful_enum fun b n h => by
  unfold TerminusExpiryPolicy.tryFrom at h
  iterate 4 replace h := (ite_ok_err h).2
  cases h⟩
instance : HopefulDec ErrorCondition := ⟨fun env fmt =>
  (HopefulDec.hopeful (α := Symbol) env fmt).bind (LawfulDec.loc env fmt) fun _ => Hopeful.pure _⟩
instance : HopefulDec DistributionMode := ⟨fun env fmt =>
  (HopefulDec.hopeful (α := Symbol) env fmt).bind (LawfulDec.loc env fmt) fun _ => Hopeful.pure _⟩
instance : HopefulDec MessageId := ⟨fun env fmt =>
  Hopeful.ite ((HopefulDec.hopeful env fmt).map _) (Hopeful.ite ((HopefulDec.hopeful env fmt).map _)
    (Hopeful.ite ((HopefulDec.hopeful env fmt).map _) (Hopeful.ite ((HopefulDec.hopeful env fmt).map _)
      (Hopeful.fail rfl))))⟩

end Amqp
