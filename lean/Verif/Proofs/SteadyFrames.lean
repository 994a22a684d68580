import Verif.Spec.SteadyFrames
import Verif.Proofs.SteadyLists
import Verif.Proofs.EqualityFrames
/-!
# Steady messages and frames that are equal are the same
-/
set_option autoImplicit false
namespace Amqp

theorem MsgHead.same {AP : Type} [REq AP] [Holdable AP] [Steadiness AP] [SteadyREq AP]
    (a b : MsgHead AP) (ha : held a) (hb : held b) (hs : steady a) (h : a.heq b = true) : a = b := by
  obtain ⟨h0, h1, h2, h3, h4, h5, h6, h7, h8, h9, h10⟩ := (MsgHead.heq_iff a b).1 h
  obtain ⟨a1, a2, a3, a4, a5, a6, a7, a8⟩ := ha
  obtain ⟨b1, b2, b3, b4, b5, b6, b7, b8⟩ := hb
  obtain ⟨s1, s2, s3, s4, s5, s6, s7, s8⟩ := hs
  have e0 := SteadyREq.same _ _ (fun _ _ => trivial) (fun _ _ => trivial) (fun _ _ => trivial) h0
  have e1 := SteadyREq.same _ _ a1 b1 s1 h1
  have e2 := SteadyREq.same _ _ a2 b2 s2 h2
  have e3 := SteadyREq.same _ _ a3 b3 s3 h3
  have e4 := SteadyREq.same _ _ a4 b4 s4 h4
  have e5 := SteadyREq.same _ _ a5 b5 s5 h5
  have e6 := SteadyREq.same _ _ a6 b6 s6 h6
  have e7 := SteadyREq.same a.data b.data (fun _ _ => trivial) (fun _ _ => trivial) (fun _ _ => trivial) h7
  have e8 := SteadyREq.same _ _ a7 b7 s7 h8
  have e9 := SteadyREq.same _ _ a8 b8 s8 h9
  cases a; cases b
  dsimp only at e0 e1 e2 e3 e4 e5 e6 e7 e8 e9 h10
  rw [e0, e1, e2, e3, e4, e5, e6, e7, e8, e9, h10]

mutual
theorem teq_same : ∀ a b : TransferBody, a.Held → b.Held → a.Steady → a.teq b = true → a = b
  | .Data a, b, _, _, _, h => by
    cases b with
    | Data b => simp only [TransferBody.teq, req, decide_eq_true_eq] at h; rw [h]
    | _ => simp [TransferBody.teq] at h
  | .MessageIn m ms, b, ha, hb, hs, h => by
    cases b with
    | MessageIn m' ms' =>
      simp only [TransferBody.Held] at ha hb
      simp only [TransferBody.Steady] at hs
      simp only [TransferBody.teq, Bool.and_eq_true] at h
      rw [teqList_same ms ms' ha.2 hb.2 hs.2 h.2, MsgHead.same m m' ha.1 hb.1 hs.1 h.1]
    | _ => simp [TransferBody.teq] at h
  | .MessageOut m ms, b, ha, hb, hs, h => by
    cases b with
    | MessageOut m' ms' =>
      simp only [TransferBody.Held] at ha hb
      simp only [TransferBody.Steady] at hs
      simp only [TransferBody.teq, Bool.and_eq_true] at h
      rw [teqList_same ms ms' ha.2 hb.2 hs.2 h.2, MsgHead.same m m' ha.1 hb.1 hs.1 h.1]
    | _ => simp [TransferBody.teq] at h
theorem teqList_same : ∀ l m : List TransferBody, bodiesHeld l → bodiesHeld m → bodiesSteady l →
    teqList l m = true → l = m
  | [], m, _, _, _, h => by
    cases m with
    | nil => rfl
    | cons => simp [teqList] at h
  | b :: t, m, hl, hm, hs, h => by
    cases m with
    | nil => simp [teqList] at h
    | cons b' t' =>
      simp only [bodiesHeld] at hl hm
      simp only [bodiesSteady] at hs
      simp only [teqList, Bool.and_eq_true] at h
      rw [teq_same b b' hl.1 hm.1 hs.1 h.1, teqList_same t t' hl.2 hm.2 hs.2 h.2]
end

instance : SteadyREq TransferBody := ⟨teq_same⟩

instance {AP : Type} [REq AP] [Holdable AP] [Steadiness AP] [SteadyREq AP] : SteadyREq (Message AP) where
  same a b ha hb hs h := by
    rw [Message.req_iff] at h
    have e1 := MsgHead.same a.toMsgHead b.toMsgHead ha.1 hb.1 hs.1 h.1
    have e2 := teqList_same _ _ ha.2 hb.2 hs.2 h.2
    cases a; cases b
    dsimp only at e1 e2
    rw [e1, e2]

instance : SteadyREq Transfer where
  same a b ha hb hs h := by
    rw [Transfer.req_iff] at h
    have e1 := SteadyREq.same a.toTransferPerf b.toTransferPerf ha.1 hb.1 hs.1 h.1
    have e2 := SteadyREq.same a.body b.body ha.2 hb.2 hs.2 h.2
    cases a; cases b
    dsimp only at e1 e2
    rw [e1, e2]

instance : SteadyREq Frame where
  same a b ha hb hs h := by
    cases a with
    | Open a => cases b with
      | Open b => exact congrArg _ (SteadyREq.same a b ha hb hs h)
      | _ => exact Bool.noConfusion h
    | Begin a => cases b with
      | Begin b => exact congrArg _ (SteadyREq.same a b ha hb hs h)
      | _ => exact Bool.noConfusion h
    | Attach a => cases b with
      | Attach b => exact congrArg _ (SteadyREq.same a b ha hb hs h)
      | _ => exact Bool.noConfusion h
    | Flow a => cases b with
      | Flow b => exact congrArg _ (SteadyREq.same a b ha hb hs h)
      | _ => exact Bool.noConfusion h
    | Transfer a => cases b with
      | Transfer b => exact congrArg _ (SteadyREq.same a b ha hb hs h)
      | _ => exact Bool.noConfusion h
    | Disposition a => cases b with
      | Disposition b => exact congrArg _ (SteadyREq.same a b ha hb hs h)
      | _ => exact Bool.noConfusion h
    | Detach a => cases b with
      | Detach b => exact congrArg _ (SteadyREq.same a b ha hb hs h)
      | _ => exact Bool.noConfusion h
    | End a => cases b with
      | End b => exact congrArg _ (SteadyREq.same a b ha hb hs h)
      | _ => exact Bool.noConfusion h
    | Close a => cases b with
      | Close b => exact congrArg _ (SteadyREq.same a b ha hb hs h)
      | _ => exact Bool.noConfusion h
    | Empty => cases b with
      | Empty => rfl
      | _ => exact Bool.noConfusion h

instance : SteadyREq AmqpFrame where
  same a b ha hb hs h := by
    rw [AmqpFrame.req_iff] at h
    have e1 := SteadyREq.same a.channel_id b.channel_id trivial trivial trivial h.1
    have e2 := SteadyREq.same a.performative b.performative ha hb hs h.2
    cases a; cases b
    dsimp only at e1 e2
    rw [e1, e2]
instance : SteadyREq SaslFrame where
  same a b ha hb hs h := by
    have e := SteadyREq.same a.body b.body ha hb hs h
    cases a; cases b
    exact congrArg _ e

end Amqp
