import Verif.DebugSasl
import Verif.Spec.Credentials
import Verif.Proofs.DebugText
import Verif.Props.Truncation
/-!
# C90: credentials in the `Debug` of frames
-/
set_option autoImplicit false
namespace Amqp
open Dec

/-! ### Reading a byte back -/

/-- The value of a hexadecimal digit. -/
def unhexDigit (x : UInt8) : Nat := if x.toNat < 0x60 then x.toNat - 0x30 else x.toNat - 0x57

theorem unhexDigit_hexDigit : ∀ n < 16, unhexDigit (hexDigit n) = n := by decide

/-- Undo `escapeByte`. -/
def unescapeByte : Bytes → Option (UInt8 × Bytes)
  | 0x5c :: 0x6e :: r => some (0x0a, r)
  | 0x5c :: 0x72 :: r => some (0x0d, r)
  | 0x5c :: 0x74 :: r => some (0x09, r)
  | 0x5c :: 0x5c :: r => some (0x5c, r)
  | 0x5c :: 0x22 :: r => some (0x22, r)
  | 0x5c :: 0x30 :: r => some (0x00, r)
  | 0x5c :: 0x78 :: a :: b :: r => some (UInt8.ofNat (unhexDigit a * 16 + unhexDigit b), r)
  | c :: r => if c = 0x22 then none else some (c, r)
  | [] => none

theorem unescapeByte_escapeByte (c : UInt8) (r : Bytes) : unescapeByte (escapeByte c ++ r) = some (c, r) := by
  unfold escapeByte
  rw [show txt "\\n" = [0x5c, 0x6e] by decide +kernel, show txt "\\r" = [0x5c, 0x72] by decide +kernel,
    show txt "\\t" = [0x5c, 0x74] by decide +kernel, show txt "\\" = [0x5c] by decide +kernel,
    show txt "\\0" = [0x5c, 0x30] by decide +kernel, show txt "\\x" = [0x5c, 0x78] by decide +kernel]
  split
  · subst_vars; rfl
  split
  · subst_vars; rfl
  split
  · subst_vars; rfl
  split
  · rename_i h; rcases h with h | h <;> subst h <;> rfl
  split
  · subst_vars; rfl
  split
  · rename_i h1 _ _
    show unescapeByte (c :: r) = _
    unfold unescapeByte
    split <;> simp_all
  · show some (UInt8.ofNat (unhexDigit (hexDigit (c.toNat / 16)) * 16 + unhexDigit (hexDigit (c.toNat % 16))), r) = _
    have hc := c.toNat_lt
    rw [unhexDigit_hexDigit _ (by omega), unhexDigit_hexDigit _ (by omega),
      show c.toNat / 16 * 16 + c.toNat % 16 = c.toNat by omega, UInt8.ofNat_toNat]

theorem escapeByte_cancel {c d : UInt8} {r s : Bytes} (h : escapeByte c ++ r = escapeByte d ++ s) :
    c = d ∧ r = s := by
  have h := congrArg unescapeByte h
  rw [unescapeByte_escapeByte, unescapeByte_escapeByte] at h
  cases h; exact ⟨rfl, rfl⟩

theorem escapeByte_quote (c : UInt8) (r s : Bytes) : escapeByte c ++ r ≠ 0x22 :: s := by
  intro h
  have h := congrArg unescapeByte h
  rw [unescapeByte_escapeByte] at h
  cases h

theorem escapeBytes_cancel {a b r s : Bytes}
    (h : a.flatMap escapeByte ++ 0x22 :: r = b.flatMap escapeByte ++ 0x22 :: s) : a = b ∧ r = s := by
  induction a generalizing b with
  | nil => cases b with
    | nil => simpa using h
    | cons d t =>
      rw [List.flatMap_nil, List.flatMap_cons, List.nil_append, List.append_assoc] at h
      exact (escapeByte_quote _ _ _ h.symm).elim
  | cons c t ih => cases b with
    | nil =>
      rw [List.flatMap_nil, List.flatMap_cons, List.nil_append, List.append_assoc] at h
      exact (escapeByte_quote _ _ _ h).elim
    | cons d t' =>
      rw [List.flatMap_cons, List.flatMap_cons, List.append_assoc, List.append_assoc] at h
      obtain ⟨rfl, h1⟩ := escapeByte_cancel h
      obtain ⟨rfl, h2⟩ := ih h1
      exact ⟨rfl, h2⟩

theorem Binary.debug_cancel {a b : Binary} {r s : Bytes} (h : a.debug ++ r = b.debug ++ s) :
    a = b ∧ r = s := by
  unfold Binary.debug at h
  simp only [List.append_assoc, show txt "\"" = [0x22] by decide +kernel] at h
  obtain ⟨h1, h2⟩ := escapeBytes_cancel (List.append_cancel_left h)
  obtain ⟨a⟩ := a; obtain ⟨b⟩ := b
  exact ⟨by rw [show a = b from h1], h2⟩

theorem typed_plain {l : Bytes} (h : ∀ c ∈ l, 0x20 ≤ c.toNat ∧ c.toNat < 0x7f ∧ c ≠ 0x22 ∧ c ≠ 0x5c) :
    l.flatMap escapeByte = l := by
  induction l with
  | nil => rfl
  | cons c t ih =>
    obtain ⟨h1, h2, h3, h4⟩ := h c (List.mem_cons_self ..)
    rw [List.flatMap_cons, ih fun d hd => h d (List.mem_cons_of_mem _ hd)]
    unfold escapeByte
    have n1 : c ≠ 0x0a := by rintro rfl; exact absurd h1 (by decide)
    have n2 : c ≠ 0x0d := by rintro rfl; exact absurd h1 (by decide)
    have n3 : c ≠ 0x09 := by rintro rfl; exact absurd h1 (by decide)
    have n4 : c ≠ 0x00 := by rintro rfl; exact absurd h1 (by decide)
    simp [n1, n2, n3, n4, h1, h2, h3, h4]

theorem Symbol.debugAs_cancel {static : RStr → Bool} {a b : Symbol} {x y : Bytes}
    (ha : 0x22 ∉ a.str.bytes) (hb : 0x22 ∉ b.str.bytes)
    (h : a.debugAs static ++ x = b.debugAs static ++ y) : a = b := by
  have q : txt "\"" = [0x22] := by decide +kernel
  have es : txt "S:\"" = [0x53, 0x3a, 0x22] := by decide +kernel
  have eb : txt "B:\"" = [0x42, 0x3a, 0x22] := by decide +kernel
  have key : a.str.bytes = b.str.bytes → a = b := by
    intro e
    obtain ⟨a⟩ := a; obtain ⟨b⟩ := b
    exact congrArg Symbol.mk (RStr.ext e)
  apply key
  unfold Symbol.debugAs at h
  simp only [List.append_assoc] at h
  have h := List.append_cancel_left h
  by_cases h1 : static a.str = true <;> by_cases h2 : static b.str = true <;>
    simp only [h1, h2, if_true, if_false, StrRepr.debug, List.append_assoc, q, es, eb, List.cons_append, List.nil_append,
      List.cons.injEq, reduceCtorEq] at h
  · exact (cancel_at ha hb h.2.2.2).1
  · exact absurd h.1 (by decide)
  · exact absurd h.1 (by decide)
  · exact (cancel_at ha hb h.2.2.2).1

theorem saslInit_tells {T : Texts} {static : RStr → Bool} {v w : SaslInit} {x y : Bytes}
    (hv : 0x22 ∉ v.mechanism.str.bytes) (hw : 0x22 ∉ w.mechanism.str.bytes)
    (h : (SaslFrameBody.SaslInit v).debug T static ++ x = (SaslFrameBody.SaslInit w).debug T static ++ y) :
    v.initial_response = w.initial_response := by
  simp only [SaslFrameBody.debug, List.append_assoc, SaslInit.debug] at h
  have h := List.append_cancel_left (List.append_cancel_left h)
  rw [Symbol.debugAs_cancel hv hw h] at h
  have h := List.append_cancel_left (List.append_cancel_left h)
  exact (option_cancel _ (fun _ _ _ _ => Binary.debug_cancel) h).1

theorem saslResponse_tells {T : Texts} {static : RStr → Bool} {v w : SaslResponse} {x y : Bytes}
    (h : (SaslFrameBody.SaslResponse v).debug T static ++ x =
      (SaslFrameBody.SaslResponse w).debug T static ++ y) : v.response = w.response := by
  simp only [SaslFrameBody.debug, List.append_assoc, SaslResponse.debug] at h
  exact (Binary.debug_cancel (List.append_cancel_left (List.append_cancel_left h))).1

/-! ### The property -/

/-- The full property: the text of a SASL frame does not depend on the credentials in it. -/
def C90_statement : Prop :=
  ∀ (T : Texts) (static : RStr → Bool) (b : SaslFrameBody) (other : Bytes),
    SaslFrame.debug T static ⟨b⟩ = SaslFrame.debug T static ⟨b.withSecret other⟩

/-- **C90** fails as far as it can: from the text of a frame the credentials in it can be
told, whatever bytes they are. (The mechanism's name has no double quotes.) -/
theorem C90_violated_tells (T : Texts) (static : RStr → Bool) (f g : SaslFrame)
    (hf : f.body.Named) (hg : g.body.Named)
    (h : f.debug T static = g.debug T static) : f.body.secret = g.body.secret := by
  obtain ⟨f⟩ := f; obtain ⟨g⟩ := g
  unfold SaslFrame.debug at h
  simp only [List.append_assoc] at h
  have h := List.append_cancel_left h
  have em : txt "SaslMechanisms(" = 0x53 :: 0x61 :: 0x73 :: 0x6c :: 0x4d :: txt "echanisms(" := by decide +kernel
  have ei : txt "SaslInit(" = 0x53 :: 0x61 :: 0x73 :: 0x6c :: 0x49 :: txt "nit(" := by decide +kernel
  have ec : txt "SaslChallenge(" = 0x53 :: 0x61 :: 0x73 :: 0x6c :: 0x43 :: txt "hallenge(" := by decide +kernel
  have er : txt "SaslResponse(" = 0x53 :: 0x61 :: 0x73 :: 0x6c :: 0x52 :: txt "esponse(" := by decide +kernel
  have eo : txt "SaslOutcome(" = 0x53 :: 0x61 :: 0x73 :: 0x6c :: 0x4f :: txt "utcome(" := by decide +kernel
  cases f with
  | SaslInit v => cases g with
    | SaslInit w => exact congrArg (Option.map Binary.data) (saslInit_tells hf hg h)
    | _ =>
      simp only [SaslFrameBody.debug, em, ei, ec, er, eo, List.append_assoc, List.cons_append,
        List.cons.injEq] at h
      exact absurd h.2.2.2.2.1 (by decide)
  | SaslResponse v => cases g with
    | SaslResponse w => exact congrArg (fun r : Binary => some r.data) (saslResponse_tells h)
    | _ =>
      simp only [SaslFrameBody.debug, em, ei, ec, er, eo, List.append_assoc, List.cons_append,
        List.cons.injEq] at h
      exact absurd h.2.2.2.2.1 (by decide)
  | _ => cases g with
    | SaslInit w =>
      simp only [SaslFrameBody.debug, em, ei, ec, er, eo, List.append_assoc, List.cons_append,
        List.cons.injEq] at h
      exact absurd h.2.2.2.2.1 (by decide)
    | SaslResponse w =>
      simp only [SaslFrameBody.debug, em, ei, ec, er, eo, List.append_assoc, List.cons_append,
        List.cons.injEq] at h
      exact absurd h.2.2.2.2.1 (by decide)
    | _ => rfl

/-- **C90** fails: a password can be read off the text of a frame that logs in with it, as it
was typed. -/
theorem C90_violated_password (T : Texts) (static : RStr → Bool) (mechanism : Symbol)
    (host : Option ByteStr) (authz authn password : RStr) (h : Typed password) :
    password.bytes <:+: SaslFrame.debug T static
      ⟨.SaslInit ⟨mechanism, some (prepareResponse authz authn password), host⟩⟩ := by
  unfold SaslFrame.debug SaslFrameBody.debug SaslInit.debug
  dsimp only [debugOption, Binary.debug, prepareResponse]
  rw [List.flatMap_append, typed_plain h]
  generalize (authz.bytes ++ [0] ++ authn.bytes ++ [0]).flatMap escapeByte = a
  refine List.IsInfix.trans ?_ (List.infix_append _ _ (txt " }"))
  refine List.IsInfix.trans ?_ (List.infix_append _ _ (txt ")"))
  refine List.IsInfix.trans ?_ ((List.prefix_append _ (txt " }")).isInfix)
  refine List.IsInfix.trans ?_ ((List.prefix_append _ _).isInfix)
  refine List.IsInfix.trans ?_ ((List.prefix_append _ _).isInfix)
  refine List.IsInfix.trans ?_ ((List.suffix_append _ _).isInfix)
  refine List.IsInfix.trans ?_ (List.infix_append _ _ (txt ")"))
  refine List.IsInfix.trans ?_ (List.infix_append _ _ (txt "\""))
  exact (List.suffix_append _ _).isInfix

/-- **C90** fails. -/
theorem C90_violated : ¬ C90_statement := by
  intro h
  have h1 := h ⟨fun _ => true, false, fun _ => [], fun _ => [], fun _ => [], fun _ => [], fun _ => [], fun _ => []⟩
    (fun _ => false) (.SaslResponse ⟨⟨[1]⟩⟩) [2]
  have h2 := C90_violated_tells _ _ _ _ (show SaslFrameBody.Named (.SaslResponse ⟨⟨[1]⟩⟩) from trivial)
    (show SaslFrameBody.Named (.SaslResponse ⟨⟨[2]⟩⟩) from trivial) h1
  exact absurd h2 (by decide)

/-- **C90**: an error about a frame that arrived incompletely tells no more than a number. -/
theorem C90_errors_partial (env : Env) (input rest got missing : Bytes)
    (b : SaslFrameBody) (h : decode SaslFrameBody env input = .ok (rest, b))
    (e : input = got ++ missing) (hl : rest.length < missing.length) :
    ∃ n, n ≤ input.length ∧ decode SaslFrameBody env got = .err (.incomplete n) ∧
      (ParseError.incomplete n).text =
        txt "More data required during frame parsing: 'Some(" ++ num n ++ txt ")'" := by
  obtain ⟨n, h1, h2⟩ := C56_lists.2.1.2.2.2.2.2 env input rest b h got missing e hl
  refine ⟨n, h2, h1, ?_⟩
  rw [ParseError.text,
    show txt "More data required during frame parsing: 'Some(" =
      txt "More data required during frame parsing: '" ++ txt "Some(" by decide +kernel,
    show txt ")'" = txt ")" ++ txt "'" by decide +kernel]
  simp only [List.append_assoc]

/-! ### Examples -/

/-- Logging in as `user` with the password `secret`. -/
def logIn : SaslFrameBody :=
  .SaslInit ⟨⟨.lit "PLAIN"⟩, some (prepareResponse (.lit "") (.lit "user") (.lit "secret")), none⟩

example : Typed (.lit "secret") ∧ logIn.Named := by
  constructor
  · unfold Typed; decide +kernel
  · show (0x22 : UInt8) ∉ (RStr.lit "PLAIN").bytes
    decide +kernel

example : SaslFrame.debug ⟨fun _ => true, false, fun _ => [], fun _ => [], fun _ => [], fun _ => [],
      fun _ => [], fun _ => []⟩ (fun _ => true) ⟨logIn⟩ =
    txt "SaslFrame { body: SaslInit(SaslInit { mechanism: Symbol(S:\"PLAIN\"), initial_response: \
      Some(b\"\\0user\\0secret\"), hostname: None }) }" := by decide +kernel

example : ∃ b, decode SaslFrameBody debugEnv (enc logIn) = .ok ([], b) ∧
    decode SaslFrameBody debugEnv ((enc logIn).take 20) = .err (.incomplete 22) := ⟨_, by rfl, by rfl⟩

example (T : Texts) : (RStr.lit "secret").bytes <:+: SaslFrame.debug T (fun _ => false)
    ⟨.SaslInit ⟨⟨.lit "PLAIN"⟩, some (prepareResponse (.lit "") (.lit "user") (.lit "secret")), none⟩⟩ :=
  C90_violated_password T _ _ none _ _ _ (by unfold Typed; decide +kernel)
example : ∃ n, n ≤ (enc logIn).length ∧
    decode SaslFrameBody debugEnv ((enc logIn).take 20) = .err (.incomplete n) ∧
    (ParseError.incomplete n).text =
      txt "More data required during frame parsing: 'Some(" ++ num n ++ txt ")'" :=
  C90_errors_partial debugEnv (enc logIn) [] _ ((enc logIn).drop 20) _ rfl
    (List.take_append_drop 20 _).symm (by decide +kernel)

end Amqp
