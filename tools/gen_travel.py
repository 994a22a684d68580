import re
src=open('/verif/lean/Verif/Proofs/ListInstances.lean').read()
types=[]
for m in re.finditer(r'instance : ListType (\w+) where\n(.*?)\n\ninstance : HasWf', src, re.S):
    name, body = m.group(1), m.group(2)
    f = re.search(r'fields := \[(.*?)\]\n', body, re.S).group(1)
    kinds = re.findall(r'\.(req|opt|dflt) ', f)
    t = re.search(r'toT \w+ := (.*)\n', body).group(1)
    names = re.findall(r'v\.(\w+)', t)
    assert len(kinds)==len(names),(name,kinds,names)
    types.append((name,list(zip(kinds,names))))
unions={'DeliveryState':['Received','Accepted','Rejected','Released','Modified'],'Outcome':['Accepted','Rejected','Released','Modified'],
 'SaslFrameBody':None,'Section':None}
lists=open('/verif/lean/Verif/Protocol/Lists.lean').read()
for u in unions:
    b=re.search(r'inductive %s where\n(.*?)\n\n'%u, lists, re.S).group(1)
    unions[u]=re.findall(r'\| (\w+) \(v', b)
order=[]
pos={}
for n,_ in types: pos[n]=lists.index('structure %s where'%n)
for u in unions: pos[u]=lists.index('inductive %s where'%u)
spec='''import Verif.Spec.Travel
/-!
# What becomes of performatives and sections on their way

Generated by `tools/gen_travel.py`: the fields are looked at in their order.
-/
set_option autoImplicit false
namespace Amqp
'''
proof='''import Verif.Proofs.Travel
import Verif.Spec.TravelLists
/-!
# What becomes of performatives and sections on their way: the types one by one

Generated by `tools/gen_travel.py`.  Support for C86.
-/
set_option autoImplicit false
namespace Amqp
open Dec
'''
settled='''import Verif.Proofs.Settled
/-!
# What has arrived arrives unaltered when sent on: the types one by one

Generated by `tools/gen_travel.py`.  Support for C86.
-/
set_option autoImplicit false
namespace Amqp
'''
passing='''import Verif.Proofs.Passing
import Verif.Proofs.EqualityReceivedLists
import Verif.Props.Forwarding
/-!
# What was received arrives unaltered or not at all when sent on: the types one by one

Generated by `tools/gen_travel.py`.  Support for C87.
-/
set_option autoImplicit false
namespace Amqp
open Dec
open Forwardable (fwd)

'''
for n in ['Role','SenderSettleMode','ReceiverSettleMode','SaslCode','TerminusDurability','TerminusExpiryPolicy']:
    passing+='instance : Forwardable %s := alwaysForwardable _\n'%n
    passing+='instance : Passes %s := .same (fun _ _ => rfl) (fun _ _ => trivial)\n'%n
fwdsrc=open('/verif/lean/Verif/Spec/ForwardLists.lean').read()
forwarded={}
for m in re.finditer(r'instance : Forwardable (\w+) := ⟨fun env v =>\n(.*?)⟩', fwdsrc, re.S):
    forwarded[m.group(1)]=re.findall(r'fwd env v\.(\w+)', m.group(2))
tt=dict(types)
restricted={'DeliveryAnnotations','MessageAnnotations','ApplicationProperties','Data','AmqpSequence','AmqpValue','Footer'}
for n in sorted(pos,key=lambda k:pos[k]):
    if n in tt:
        fs=tt[n]
        passing+='\ntheorem %s.passesInner : PassesInner %s := by\n'%(n,n)
        if not fs:
            passing+='  exact fun _ _ _ v _ => .same (fun _ => rfl) (fun _ => trivial)\n'
        else:
            fw=forwarded.get(n,[])
            passing+='  intro env i r v h\n  obtain ⟨%s, -⟩ := inner_origin h\n'%', '.join('-' if k=='dflt' else 'o%d'%j for j,(k,_) in enumerate(fs))
            for j,(k,f) in enumerate(fs):
                if k!='dflt': passing+='  have p%d : Passing env.stackDepth v.%s := passing_%s o%d\n'%(j,f,k,j)
            passing+='  refine ⟨fun env\' w hw => ?_, fun env\' hd hf => ?_⟩\n  ·'
            got=[]
            for j,(k,f) in enumerate(fs):
                ind='    ' if j else ' '
                passing+=ind+'obtain ⟨a%d, e%d, hw⟩ := bind_arrives (s := fate env\' v.%s) hw\n'%(j,j,f)
                if k=='dflt': passing+='    cases e%d\n'%j
                elif f in fw: passing+='    obtain ⟨rfl, f%d⟩ := p%d.1 env\' _ e%d\n'%(j,j,j); got.append('f%d'%j)
                else: passing+='    obtain ⟨rfl, -⟩ := p%d.1 env\' _ e%d\n'%(j,j)
            assert len(got)==len(fw),(n,got,fw)
            passing+='    cases hw\n    exact ⟨rfl, %s⟩\n'%(', '.join(got) or 'trivial')
            passing+='  · '
            if len(fw)>1: passing+='obtain ⟨%s⟩ := hf\n    '%', '.join('f%d'%j for j,(k,f) in enumerate(fs) if f in fw)
            steps=[]
            for j,(k,f) in enumerate(fs):
                if k=='dflt': steps.append('(s := fate env\' v.%s) rfl'%f)
                else:
                    if f in fw: g='hf' if len(fw)==1 else 'f%d'%j
                    else: g='(fun _ _ => trivial)' if k=='opt' else 'trivial'
                    steps.append('(s := fate env\' v.%s) (p%d.2 env\' hd %s)'%(f,j,g))
            passing+='\n    '.join('refine (bind_same %s _).trans ?_'%x for x in steps)+'\n    rfl\n'
        passing+='instance : Passes %s := passes_list %s.passesInner\n'%(n,n)
        settled+='\ninstance : Settled %s := listSettled (fun _ => rfl)\n  ⟨%strivial⟩\n'%(n,''.join('FieldFate.%s_stable, '%k for k,_ in fs)) if fs else '\ninstance : Settled %s := .same fun _ _ => rfl\n'%n
        if not fs:
            spec+='\ninstance : HasFate %s := .same _\n'%n
            proof+='''
instance : ListFate %s where
  ff := ()
  fate_eq _ _ := rfl
  held_ok _ _ := trivial
instance : FateLaw %s := listFateLaw
'''%(n,n)
        else:
            spec+='\ninstance : HasFate %s := ⟨fun env v => do\n'%n
            for k,f in fs: spec+='  let %s ← fate env v.%s\n'%(f,f)
            spec+='  pure { %s }⟩\n'%', '.join(f for _,f in fs)
            anon = ', '.join('h%s'%('.2'*i+('.1' if i<len(fs)-1 else '')) for i in range(len(fs)))
            proof+='''
instance : ListFate %s where
  ff := (%s, ())
  fate_eq _ _ := rfl
  held_ok _ h := ⟨%s, trivial⟩
instance : FateLaw %s := listFateLaw
'''%(n,', '.join('.'+k for k,_ in fs),anon,n)
    else:
        spec+='\ninstance : HasFate %s := ⟨fun env u => match u with\n'%n
        for c in unions[n]:
            spec+='  | .%s v => do pure (.%s (← fate env v))\n'%(c,c)
        spec=spec.rstrip('\n')+'⟩\n'
        settled+='\ninstance : Settled %s := ⟨fun env u w h => by\n  cases u with\n'%n
        for c in unions[n]:
            settled+='  | %s v => obtain ⟨a, rfl, k⟩ := settled_member %s.%s h; exact k\n'%(c,n,c)
        settled=settled.rstrip('\n')+'⟩\n'
        passing+='\ntheorem %s.passing_of_origin {env : Env} {u : %s} (ho : u.Origin env) :\n    Passing env.stackDepth u := by\n  cases u with\n'%(n,n)
        for c in unions[n]:
            passing+='  | %s v =>\n    obtain ⟨i, r, ho⟩ := ho\n    exact passing_member %s.%s (%s env i r v ho)\n'%(c,n,c,'Passes.passes' if c in restricted else c+'.passesInner')
        passing+='''instance : Passes %s := ⟨by
  intro env i r v h
  obtain ⟨c, t, rfl, h1⟩ := decode_ok h
  obtain ⟨_, h1⟩ := validateCode_ok h1
  obtain ⟨_, d, _, h1⟩ := bind_eq_ok.1 h1
  exact %s.passing_of_origin (%s.dispatch_origin env d _ _ _ h1)⟩
'''%(n,n,n)
        proof+='\ninstance : FateLaw %s := ⟨fun env u h hl rest => by\n  cases u with\n'%n
        for c in unions[n]:
            if c in restricted:
                code={'DeliveryAnnotations':113,'MessageAnnotations':114,'ApplicationProperties':116,'Data':117,'AmqpSequence':118,'AmqpValue':119,'Footer':120}[c]
                proof+='  | %s v =>\n    exact fate_restricted %s.%s (%s.dispatch env) %d (by decide) v h hl rest rfl rfl\n'%(c,n,c,n,code)
            else:
                proof+='  | %s v =>\n    exact fate_union_list %s.%s (%s.dispatch env) v h hl rest rfl rfl\n'%(c,n,c,n)
        proof=proof.rstrip('\n')+'⟩\n'
frames=['Open','Begin','Attach','Flow','Transfer','Disposition','Detach','End','Close']
settled+='''
theorem arriving_arriving (b : Option TransferBody) : arrivingBody (arrivingBody b) = arrivingBody b := by
  cases b with
  | none => rfl
  | some b =>
    simp only [arrivingBody]
    by_cases h : enc b = []
    · rw [if_pos h]
    · rw [if_neg h]
      exact if_neg h

instance : Settled Transfer := ⟨fun env t w h => by
  obtain ⟨p, h1, h2⟩ := bind_arrives (s := fate env t.toTransferPerf)
    (f := fun p => pure ({ p with body := arrivingBody t.body } : Transfer)) h
  cases h2
  show (fate env p >>= fun q => pure ({ q with body := arrivingBody (arrivingBody t.body) } : Transfer)) = _
  rw [Settled.settled env _ p h1, arriving_arriving]
  rfl⟩

instance : Settled Frame := ⟨fun env u w h => by
  cases u with
'''
for c in frames:
    settled+='  | %s v => obtain ⟨a, rfl, k⟩ := settled_member Frame.%s h; exact k\n'%(c,c)
settled+='''  | Empty => cases h; rfl⟩

instance : Settled AmqpFrame := ⟨fun env f w h => by
  obtain ⟨a, rfl, k⟩ := settled_member (fun p => ({ channel_id := f.channel_id, performative := p } : AmqpFrame)) h
  exact k⟩

instance : Settled SaslFrame := ⟨fun env f w h => by
  obtain ⟨a, rfl, k⟩ := settled_member SaslFrame.mk h
  exact k⟩

end Amqp
'''
open('/verif/lean/Verif/Proofs/SettledLists.lean','w').write(settled)
spec+='\nend Amqp\n'
proof+='\nend Amqp\n'
open('/verif/lean/Verif/Spec/TravelLists.lean','w').write(spec)
open('/verif/lean/Verif/Proofs/TravelLists.lean','w').write(proof)
passing+='''
theorem arriving_received {b : Option TransferBody}
    (h : ∀ x, b = some x → ∃ d : Binary, x = .Data d ∧ d.data ≠ []) : arrivingBody b = b := by
  cases b with
  | none => rfl
  | some x =>
    obtain ⟨d, rfl, hd⟩ := h x rfl
    have e : enc (TransferBody.Data d) = d.data := by simp [enc, TransferBody.tenc]
    simp only [arrivingBody, e, if_neg hd]

instance : Forwardable Transfer := ⟨fun env v => fwd env v.toTransferPerf⟩

theorem Frame.passing_of_origin {env : Env} {f : Frame} (ho : f.Origin env) :
    Passing env.stackDepth f := by
  cases f with
'''
for c in frames:
    if c=='Transfer':
        passing+='''  | Transfer v =>
    obtain ⟨⟨i, r, ho⟩, hb⟩ := ho
    have p := TransferPerf.passesInner env i r _ ho
    have pt : Passing env.stackDepth v := by
      refine ⟨fun env' w hw => ?_, fun env' hd hf => ?_⟩
      · obtain ⟨a, e, hw⟩ := bind_arrives (s := fate env' v.toTransferPerf) hw
        obtain ⟨rfl, f⟩ := p.1 env' _ e
        cases hw
        rw [arriving_received hb]
        exact ⟨rfl, f⟩
      · refine (bind_same (s := fate env' v.toTransferPerf) (p.2 env' hd hf) _).trans ?_
        rw [arriving_received hb]
        rfl
    exact passing_member Frame.Transfer pt
'''
    else:
        passing+='  | %s v => obtain ⟨i, r, ho⟩ := ho; exact passing_member Frame.%s (%s.passesInner env i r v ho)\n'%(c,c,c)
passing+='''  | Empty => exact .same (fun _ => rfl) (fun _ => trivial)

theorem AmqpFrame.passing {env : Env} {i r : Bytes} {f : AmqpFrame}
    (h : AmqpFrame.decode env i = .ok (r, f)) : Passing env.stackDepth f := by
  obtain ⟨_, ch, _, h⟩ := bind_eq_ok.1 h
  obtain ⟨_, p, h1, h⟩ := bind_eq_ok.1 h
  cases h
  exact passing_member (fun p => ({ channel_id := ch, performative := p } : AmqpFrame))
    (Frame.passing_of_origin (Frame.decode_origin h1))

theorem SaslFrame.passing {env : Env} {i r : Bytes} {f : SaslFrame}
    (h : SaslFrame.decode env i = .ok (r, f)) : Passing env.stackDepth f := by
  obtain ⟨_, ch, _, h⟩ := bind_eq_ok.1 h
  obtain ⟨_, p, h1, h⟩ := bind_eq_ok.1 h
  cases h
  exact passing_member SaslFrame.mk (Passes.passes (α := SaslFrameBody) env _ _ p h1)
'''
open('/verif/lean/Verif/Proofs/PassingLists.lean','w').write(passing+'\nend Amqp\n')
