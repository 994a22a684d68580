import Verif.Proofs.EnumLaws
/-!
# Laws of `ErrorCondition`, `DistributionMode`, `MessageId` and `List`
-/
namespace Amqp
open Dec

/-! ### ErrorCondition -/

/-- The symbol that stands for an error condition on the wire. -/
def ErrorCondition.symbol : ErrorCondition → Symbol
  | .AmqpError e => e.base
  | .ConnectionError e => e.base
  | .SessionError e => e.base
  | .LinkError e => e.base
  | .Custom s => s

theorem ErrorCondition.enc_eq (c : ErrorCondition) : enc c = enc c.symbol := by
  cases c with
  | AmqpError e => exact EnumType.enc_eq e
  | ConnectionError e => exact EnumType.enc_eq e
  | SessionError e => exact EnumType.enc_eq e
  | LinkError e => exact EnumType.enc_eq e
  | Custom s => rfl

theorem ErrorCondition.size_eq (c : ErrorCondition) : size c = size c.symbol := by
  cases c with
  | AmqpError e => exact EnumType.size_eq e
  | ConnectionError e => exact EnumType.size_eq e
  | SessionError e => exact EnumType.size_eq e
  | LinkError e => exact EnumType.size_eq e
  | Custom s => rfl

theorem ErrorCondition.ofSymbol_amqp (e : Amqp.AmqpError) : ofSymbol e.base = .AmqpError e := by
  cases e <;> decide
theorem ErrorCondition.ofSymbol_connection (e : Amqp.ConnectionError) :
    ofSymbol e.base = .ConnectionError e := by
  cases e <;> decide
theorem ErrorCondition.ofSymbol_session (e : Amqp.SessionError) : ofSymbol e.base = .SessionError e := by
  cases e <;> decide
theorem ErrorCondition.ofSymbol_link (e : Amqp.LinkError) : ofSymbol e.base = .LinkError e := by
  cases e <;> decide

/-- The condition written for the classification of `s` is `s` again. -/
theorem ErrorCondition.symbol_ofSymbol (s : Symbol) : (ofSymbol s).symbol = s := by
  unfold ofSymbol
  cases h1 : AmqpError.tryFrom s with
  | ok e => exact (EnumType.base_of s e h1).symm
  | _ =>
    cases h2 : ConnectionError.tryFrom s with
    | ok e => exact (EnumType.base_of s e h2).symm
    | _ =>
      cases h3 : SessionError.tryFrom s with
      | ok e => exact (EnumType.base_of s e h3).symm
      | _ =>
        cases h4 : LinkError.tryFrom s with
        | ok e => exact (EnumType.base_of s e h4).symm
        | _ => rfl

/-- Conditions that survive a round trip: a custom one must not use the symbol
of a standard one. -/
instance : HasWf ErrorCondition := ⟨fun env c =>
  wf env c.symbol ∧ ∀ s, c = .Custom s → ErrorCondition.ofSymbol s = .Custom s⟩

theorem decode_errorCondition (env : Env) :
    decode ErrorCondition env = ErrorCondition.ofSymbol <$> decode Symbol env := by
  funext i
  cases i with
  | nil => rfl
  | cons f t =>
    show (decF env f >>= fun r => pure (ErrorCondition.ofSymbol r) : Dec ErrorCondition) t = _
    rw [bind_pure_comp]; rw [run_map, run_map]; rfl

instance : LawfulCodec ErrorCondition := ⟨fun env c h => by
  rw [ErrorCondition.enc_eq, decode_errorCondition]
  have := (LawfulCodec.rt env c.symbol h.1).map ErrorCondition.ofSymbol
  have e : ErrorCondition.ofSymbol c.symbol = c := by
    cases c with
    | AmqpError e => exact ErrorCondition.ofSymbol_amqp e
    | ConnectionError e => exact ErrorCondition.ofSymbol_connection e
    | SessionError e => exact ErrorCondition.ofSymbol_session e
    | LinkError e => exact ErrorCondition.ofSymbol_link e
    | Custom s => exact h.2 s rfl
  rw [e] at this
  exact this⟩

instance : LawfulEnc ErrorCondition := ⟨fun c => by
  rw [ErrorCondition.enc_eq, ErrorCondition.size_eq]; exact LawfulEnc.size_eq _⟩
instance : NonNull ErrorCondition := ⟨fun c => by
  rw [ErrorCondition.enc_eq]; exact NonNull.head _⟩
instance : LawfulDec ErrorCondition :=
  ⟨fun env fmt => (LawfulDec.loc env fmt).bind fun _ => Local.pure _⟩
instance : SafeDec ErrorCondition :=
  ⟨fun env fmt => (SafeDec.safe env fmt).bind fun _ => Safe.pure _⟩

/-! ### DistributionMode -/

/-- The symbol that stands for a distribution mode on the wire. -/
def DistributionMode.symbol : DistributionMode → Symbol
  | .Move => ⟨.lit "move"⟩
  | .Copy => ⟨.lit "copy"⟩
  | .Custom s => s

theorem DistributionMode.enc_eq (c : DistributionMode) : enc c = enc c.symbol := by
  cases c <;> rfl
theorem DistributionMode.size_eq (c : DistributionMode) : size c = size c.symbol := by
  cases c
  · decide
  · decide
  · rfl

theorem DistributionMode.symbol_ofSymbol (s : Symbol) : (ofSymbol s).symbol = s := by
  unfold ofSymbol
  split
  · exact (Symbol.eq_of_str ‹_›).symm
  · split
    · exact (Symbol.eq_of_str ‹_›).symm
    · rfl

instance : HasWf DistributionMode := ⟨fun env c =>
  wf env c.symbol ∧ ∀ s, c = .Custom s → DistributionMode.ofSymbol s = .Custom s⟩

theorem decode_distributionMode (env : Env) :
    decode DistributionMode env = DistributionMode.ofSymbol <$> decode Symbol env := by
  funext i
  cases i with
  | nil => rfl
  | cons f t =>
    show (decF env f >>= fun r => pure (DistributionMode.ofSymbol r) : Dec DistributionMode) t = _
    rw [bind_pure_comp]; rw [run_map, run_map]; rfl

instance : LawfulCodec DistributionMode := ⟨fun env c h => by
  rw [DistributionMode.enc_eq, decode_distributionMode]
  have := (LawfulCodec.rt env c.symbol h.1).map DistributionMode.ofSymbol
  have e : DistributionMode.ofSymbol c.symbol = c := by
    cases c with
    | Move => decide
    | Copy => decide
    | Custom s => exact h.2 s rfl
  rw [e] at this
  exact this⟩

instance : LawfulEnc DistributionMode := ⟨fun c => by
  rw [DistributionMode.enc_eq, DistributionMode.size_eq]; exact LawfulEnc.size_eq _⟩
instance : NonNull DistributionMode := ⟨fun c => by
  rw [DistributionMode.enc_eq]; exact NonNull.head _⟩
instance : LawfulDec DistributionMode :=
  ⟨fun env fmt => (LawfulDec.loc env fmt).bind fun _ => Local.pure _⟩
instance : SafeDec DistributionMode :=
  ⟨fun env fmt => (SafeDec.safe env fmt).bind fun _ => Safe.pure _⟩

/-! ### MessageId -/

instance : HasWf MessageId := ⟨fun env m => match m with
  | .Ulong v => wf env v
  | .Uuid v => wf env v
  | .Binary v => wf env v
  | .String v => wf env v⟩

instance : LawfulEnc MessageId := ⟨fun m => by
  cases m with
  | Ulong v => exact LawfulEnc.size_eq v
  | Uuid v => exact LawfulEnc.size_eq v
  | Binary v => exact LawfulEnc.size_eq v
  | String v => exact LawfulEnc.size_eq v⟩

instance : NonNull MessageId := ⟨fun m => by
  cases m with
  | Ulong v => exact NonNull.head v
  | Uuid v => exact NonNull.head v
  | Binary v => exact NonNull.head v
  | String v => exact NonNull.head v⟩

instance : LawfulDec MessageId := ⟨fun env fmt =>
  Local.ite ((LawfulDec.loc env fmt).map _) <| Local.ite ((LawfulDec.loc env fmt).map _) <|
  Local.ite ((LawfulDec.loc env fmt).map _) <| Local.ite ((LawfulDec.loc env fmt).map _) <|
  Local.fail _⟩

instance : SafeDec MessageId := ⟨fun env fmt =>
  Safe.ite ((SafeDec.safe env fmt).map _) <| Safe.ite ((SafeDec.safe env fmt).map _) <|
  Safe.ite ((SafeDec.safe env fmt).map _) <| Safe.ite ((SafeDec.safe env fmt).map _) <|
  Safe.fail _⟩

instance : LawfulCodec MessageId := ⟨fun env m h => by
  cases m with
  | Ulong v =>
    have h1 : Reads (decode UInt64 env) (enc v) v := LawfulCodec.rt env v h
    show Reads (decode MessageId env) (enc v) _
    intro more
    have h2 := h1 more
    simp only [enc] at h2 ⊢
    split at h2
    · rw [if_pos (by assumption)]; exact map_ok h2
    · rw [if_neg (by assumption)]
      split at h2
      · rw [if_pos (by assumption)]; exact map_ok h2
      · rw [if_neg (by assumption)]; exact map_ok h2
  | Uuid v =>
    have h1 : Reads (decode Uuid env) (enc v) v := LawfulCodec.rt env v h
    intro more
    exact map_ok (f := MessageId.Uuid) (h1 more)
  | Binary v =>
    have h1 : Reads (decode Binary env) (enc v) v := LawfulCodec.rt env v h
    show Reads (decode MessageId env) (enc v) _
    intro more
    have h2 := h1 more
    simp only [enc, varEnc] at h2 ⊢
    split at h2
    · rw [if_pos (by assumption)]; exact map_ok (f := MessageId.Binary) h2
    · rw [if_neg (by assumption)]; exact map_ok (f := MessageId.Binary) h2
  | String v =>
    have h1 : Reads (decode RStr env) (enc v) v := LawfulCodec.rt env v h
    show Reads (decode MessageId env) (enc v) _
    intro more
    have h2 := h1 more
    simp only [enc, varEnc] at h2 ⊢
    split at h2
    · rw [if_pos (by assumption)]; exact map_ok (f := MessageId.String) h2
    · rw [if_neg (by assumption)]; exact map_ok (f := MessageId.String) h2⟩

/-! ### List -/

/-- No `List` survives a round trip (C15): the encoder writes array codes. -/
instance : HasWf VList := ⟨fun _ _ => False⟩
instance : LawfulCodec VList := ⟨fun _ _ h => h.elim⟩

end Amqp
