#!/usr/bin/env python3
"""Generates lean/Verif/AtomFields.lean: simp lemmas for the fields of the state transformers of Verif/Atoms.lean."""
F="isOpen upperOpen rxFlag lowerReady active pending stats tx buf payloadLen ini inAuth log acts".split()
T=[ # name, args (binder), applied, tactic, changed fields
("noted","(o : Obs)","s.noted o","rfl",{"log":"s.log ++ [o]"}),
("received","(m w : Bytes)","s.received m w","rfl",{"log":"s.log ++ [.recv m]","buf":"w"}),
("sent","(x : Bytes)","s.sent x","rfl",{"log":"s.log ++ [.lowerTx x s.lowerReady]","lowerReady":"false"}),
("opening","","s.opening","S",{"upperOpen":"true","log":"s.log ++ (if s.upperOpen then [] else [.up .opened])"}),
("closing","","s.closing","S",{"upperOpen":"false","log":"s.log ++ (if s.upperOpen then [.up .closed] else [])"}),
("rxNotified","","s.rxNotified","S",{"log":"s.log ++ (if s.upperOpen then [.up .rxReady] else [])"}),
("txNotified","","s.txNotified","S",{"log":"s.log ++ (if s.upperOpen then [.up .txReady] else [])"}),
("keyNoted","(o : Option UInt64)","s.keyNoted o","O",{"log":"s.log ++ keyObs o"}),
("establishedIf","(n : Nat)","s.establishedIf n","S",{"log":"s.log ++ (if s.stats.numInit ≠ n then [.established s.pending.keys s.pending.algorithms s.pending.param] else [])"}),
("authFormatted","(b : Bool) (t : Int)","s.authFormatted b t","B",{"active":"if b then s.active else (s.active.formatAuth t s.tx.remainder).1","pending":"if b then (s.pending.formatAuth t s.tx.remainder).1 else s.pending","acts":"s.acts ++ [(s.log.length, authAct b s.tx.remainder ((if b then s.pending else s.active).formatAuth t s.tx.remainder).2.1 ((if b then s.pending else s.active).formatAuth t s.tx.remainder).2.2)]"}),
("authTaken","(x y : Bytes)","s.authTaken x y","S",{"tx":"if x ≠ [] then s.tx.beginTransmit y else s.tx"}),
("authValidated","(c : Cfg) (m : SessionData) (t : Int) (x : Bytes)","s.authValidated c m t x","rfl",{"pending":"(s.pending.validateAuth s.stats m t c.bufLen).1","stats":"(s.pending.validateAuth s.stats m t c.bufLen).2.1","buf":"bufferAfter s.buf x (s.pending.validateAuth s.stats m t c.bufLen).2.2","acts":"s.acts ++ [(s.log.length, .checked true m (s.pending.validateAuth s.stats m t c.bufLen).2.2)]"}),
("dataValidated","(c : Cfg) (m : SessionData) (t : Int) (x : Bytes)","s.dataValidated c m t x","rfl",{"active":"(s.active.validateData s.stats m t c.bufLen).1","stats":"(s.active.validateData s.stats m t c.bufLen).2.1","buf":"bufferAfter s.buf x (s.active.validateData s.stats m t c.bufLen).2.2","acts":"s.acts ++ [(s.log.length, .checked false m (s.active.validateData s.stats m t c.bufLen).2.2)]"}),
("activated","","s.activated","rfl",{"active":"s.pending","pending":"s.active.reset"}),
("initAuthOk","(c : Cfg) (p : Params) (m : SessionData) (t : Int) (x : Bytes)","s.initAuthOk c p m t x","I",{
 "upperOpen":"true","log":"s.log ++ (if s.upperOpen then [] else [.up .opened])",
 "active":"(s.pending.validateAuth s.stats m t c.bufLen).1","pending":"s.active.reset",
 "stats":"(s.pending.validateAuth s.stats m t c.bufLen).2.1","buf":"bufferAfter s.buf x (s.pending.validateAuth s.stats m t c.bufLen).2.2",
 "ini":"({ s.ini with respTimer := none, required := false } : Ini).startSess ((s.pending.validateAuth s.stats m t c.bufLen).1.param.sessionStart + ms p.sessionTimeTriggerMs)",
 "inAuth":"true","acts":"s.acts ++ [(s.log.length, .checked true m (s.pending.validateAuth s.stats m t c.bufLen).2.2)]"}),
("lowerClosing","(c : Cfg)","s.lowerClosing c","C",{"isOpen":"false","upperOpen":"false","active":"s.active.reset","pending":"s.pending.reset","payloadLen":"0",
 "ini":"(match c.role with | .initiator _ _ => { s.ini with hs := .idle, respTimer := none, sessTimer := none, required := false } | .responder _ => s.ini)",
 "log":"s.log ++ .lowerClose :: (if s.upperOpen then [.up .closed] else [])"}),
("closedDown","(c : Cfg)","s.closedDown c","rfl",{"tx":"s.tx.reset","rxFlag":"(c.viaStack && s.rxFlag)","acts":"s.acts ++ [(s.log.length, .discarded)]"}),
]
out='''import Verif.Atoms
/-
  Fields of the state transformers of Verif/Atoms.lean (generated by tools/fields.py).
-/
namespace SSP21.Crypto

section
variable (s : Layer)
'''
for n,b,a,tac,ch in T:
    for f in F:
        rhs=ch.get(f,"s."+f)
        if tac=="rfl": pr=":= rfl"
        elif tac=="S": pr=f":= by\n  unfold Layer.{n}; split <;> simp_all [Layer.noted]"
        elif tac=="O": pr=f":= by\n  cases o <;> simp [Layer.keyNoted, keyObs, Layer.noted]"
        elif tac=="B": pr=f":= by\n  cases b <;> rfl"
        elif tac=="I": pr=f":= by\n  unfold Layer.initAuthOk Layer.opening Layer.activated Layer.authValidated; dsimp only; split <;> simp_all [Layer.noted]"
        elif tac=="C": pr=f":= by\n  unfold Layer.lowerClosing; dsimp only; cases c.role <;> simp [Layer.closing, Layer.noted] <;> split <;> simp_all"
        out+=f"@[simp] theorem {n}_{f} {b} : ({a}).{f} = {rhs} {pr}\n"
out+='''end

end SSP21.Crypto
'''
open(__import__('sys').argv[1] if len(__import__('sys').argv)>1 else '/verif/lean/Verif/AtomFields.lean','w').write(out)
