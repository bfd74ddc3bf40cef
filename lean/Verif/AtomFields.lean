import Verif.Atoms
/-
  Fields of the state transformers of Verif/Atoms.lean (generated by tools/fields.py).
-/
namespace SSP21.Crypto

section
variable (s : Layer)
@[simp] theorem noted_isOpen (o : Obs) : (s.noted o).isOpen = s.isOpen := rfl
@[simp] theorem noted_upperOpen (o : Obs) : (s.noted o).upperOpen = s.upperOpen := rfl
@[simp] theorem noted_rxFlag (o : Obs) : (s.noted o).rxFlag = s.rxFlag := rfl
@[simp] theorem noted_lowerReady (o : Obs) : (s.noted o).lowerReady = s.lowerReady := rfl
@[simp] theorem noted_active (o : Obs) : (s.noted o).active = s.active := rfl
@[simp] theorem noted_pending (o : Obs) : (s.noted o).pending = s.pending := rfl
@[simp] theorem noted_stats (o : Obs) : (s.noted o).stats = s.stats := rfl
@[simp] theorem noted_tx (o : Obs) : (s.noted o).tx = s.tx := rfl
@[simp] theorem noted_buf (o : Obs) : (s.noted o).buf = s.buf := rfl
@[simp] theorem noted_payloadLen (o : Obs) : (s.noted o).payloadLen = s.payloadLen := rfl
@[simp] theorem noted_ini (o : Obs) : (s.noted o).ini = s.ini := rfl
@[simp] theorem noted_inAuth (o : Obs) : (s.noted o).inAuth = s.inAuth := rfl
@[simp] theorem noted_log (o : Obs) : (s.noted o).log = s.log ++ [o] := rfl
@[simp] theorem noted_acts (o : Obs) : (s.noted o).acts = s.acts := rfl
@[simp] theorem received_isOpen (m w : Bytes) : (s.received m w).isOpen = s.isOpen := rfl
@[simp] theorem received_upperOpen (m w : Bytes) : (s.received m w).upperOpen = s.upperOpen := rfl
@[simp] theorem received_rxFlag (m w : Bytes) : (s.received m w).rxFlag = s.rxFlag := rfl
@[simp] theorem received_lowerReady (m w : Bytes) : (s.received m w).lowerReady = s.lowerReady := rfl
@[simp] theorem received_active (m w : Bytes) : (s.received m w).active = s.active := rfl
@[simp] theorem received_pending (m w : Bytes) : (s.received m w).pending = s.pending := rfl
@[simp] theorem received_stats (m w : Bytes) : (s.received m w).stats = s.stats := rfl
@[simp] theorem received_tx (m w : Bytes) : (s.received m w).tx = s.tx := rfl
@[simp] theorem received_buf (m w : Bytes) : (s.received m w).buf = w := rfl
@[simp] theorem received_payloadLen (m w : Bytes) : (s.received m w).payloadLen = s.payloadLen := rfl
@[simp] theorem received_ini (m w : Bytes) : (s.received m w).ini = s.ini := rfl
@[simp] theorem received_inAuth (m w : Bytes) : (s.received m w).inAuth = s.inAuth := rfl
@[simp] theorem received_log (m w : Bytes) : (s.received m w).log = s.log ++ [.recv m] := rfl
@[simp] theorem received_acts (m w : Bytes) : (s.received m w).acts = s.acts := rfl
@[simp] theorem sent_isOpen (x : Bytes) : (s.sent x).isOpen = s.isOpen := rfl
@[simp] theorem sent_upperOpen (x : Bytes) : (s.sent x).upperOpen = s.upperOpen := rfl
@[simp] theorem sent_rxFlag (x : Bytes) : (s.sent x).rxFlag = s.rxFlag := rfl
@[simp] theorem sent_lowerReady (x : Bytes) : (s.sent x).lowerReady = false := rfl
@[simp] theorem sent_active (x : Bytes) : (s.sent x).active = s.active := rfl
@[simp] theorem sent_pending (x : Bytes) : (s.sent x).pending = s.pending := rfl
@[simp] theorem sent_stats (x : Bytes) : (s.sent x).stats = s.stats := rfl
@[simp] theorem sent_tx (x : Bytes) : (s.sent x).tx = s.tx := rfl
@[simp] theorem sent_buf (x : Bytes) : (s.sent x).buf = s.buf := rfl
@[simp] theorem sent_payloadLen (x : Bytes) : (s.sent x).payloadLen = s.payloadLen := rfl
@[simp] theorem sent_ini (x : Bytes) : (s.sent x).ini = s.ini := rfl
@[simp] theorem sent_inAuth (x : Bytes) : (s.sent x).inAuth = s.inAuth := rfl
@[simp] theorem sent_log (x : Bytes) : (s.sent x).log = s.log ++ [.lowerTx x s.lowerReady] := rfl
@[simp] theorem sent_acts (x : Bytes) : (s.sent x).acts = s.acts := rfl
@[simp] theorem opening_isOpen  : (s.opening).isOpen = s.isOpen := by
  unfold Layer.opening; split <;> simp_all [Layer.noted]
@[simp] theorem opening_upperOpen  : (s.opening).upperOpen = true := by
  unfold Layer.opening; split <;> simp_all [Layer.noted]
@[simp] theorem opening_rxFlag  : (s.opening).rxFlag = s.rxFlag := by
  unfold Layer.opening; split <;> simp_all [Layer.noted]
@[simp] theorem opening_lowerReady  : (s.opening).lowerReady = s.lowerReady := by
  unfold Layer.opening; split <;> simp_all [Layer.noted]
@[simp] theorem opening_active  : (s.opening).active = s.active := by
  unfold Layer.opening; split <;> simp_all [Layer.noted]
@[simp] theorem opening_pending  : (s.opening).pending = s.pending := by
  unfold Layer.opening; split <;> simp_all [Layer.noted]
@[simp] theorem opening_stats  : (s.opening).stats = s.stats := by
  unfold Layer.opening; split <;> simp_all [Layer.noted]
@[simp] theorem opening_tx  : (s.opening).tx = s.tx := by
  unfold Layer.opening; split <;> simp_all [Layer.noted]
@[simp] theorem opening_buf  : (s.opening).buf = s.buf := by
  unfold Layer.opening; split <;> simp_all [Layer.noted]
@[simp] theorem opening_payloadLen  : (s.opening).payloadLen = s.payloadLen := by
  unfold Layer.opening; split <;> simp_all [Layer.noted]
@[simp] theorem opening_ini  : (s.opening).ini = s.ini := by
  unfold Layer.opening; split <;> simp_all [Layer.noted]
@[simp] theorem opening_inAuth  : (s.opening).inAuth = s.inAuth := by
  unfold Layer.opening; split <;> simp_all [Layer.noted]
@[simp] theorem opening_log  : (s.opening).log = s.log ++ (if s.upperOpen then [] else [.up .opened]) := by
  unfold Layer.opening; split <;> simp_all [Layer.noted]
@[simp] theorem opening_acts  : (s.opening).acts = s.acts := by
  unfold Layer.opening; split <;> simp_all [Layer.noted]
@[simp] theorem closing_isOpen  : (s.closing).isOpen = s.isOpen := by
  unfold Layer.closing; split <;> simp_all [Layer.noted]
@[simp] theorem closing_upperOpen  : (s.closing).upperOpen = false := by
  unfold Layer.closing; split <;> simp_all [Layer.noted]
@[simp] theorem closing_rxFlag  : (s.closing).rxFlag = s.rxFlag := by
  unfold Layer.closing; split <;> simp_all [Layer.noted]
@[simp] theorem closing_lowerReady  : (s.closing).lowerReady = s.lowerReady := by
  unfold Layer.closing; split <;> simp_all [Layer.noted]
@[simp] theorem closing_active  : (s.closing).active = s.active := by
  unfold Layer.closing; split <;> simp_all [Layer.noted]
@[simp] theorem closing_pending  : (s.closing).pending = s.pending := by
  unfold Layer.closing; split <;> simp_all [Layer.noted]
@[simp] theorem closing_stats  : (s.closing).stats = s.stats := by
  unfold Layer.closing; split <;> simp_all [Layer.noted]
@[simp] theorem closing_tx  : (s.closing).tx = s.tx := by
  unfold Layer.closing; split <;> simp_all [Layer.noted]
@[simp] theorem closing_buf  : (s.closing).buf = s.buf := by
  unfold Layer.closing; split <;> simp_all [Layer.noted]
@[simp] theorem closing_payloadLen  : (s.closing).payloadLen = s.payloadLen := by
  unfold Layer.closing; split <;> simp_all [Layer.noted]
@[simp] theorem closing_ini  : (s.closing).ini = s.ini := by
  unfold Layer.closing; split <;> simp_all [Layer.noted]
@[simp] theorem closing_inAuth  : (s.closing).inAuth = s.inAuth := by
  unfold Layer.closing; split <;> simp_all [Layer.noted]
@[simp] theorem closing_log  : (s.closing).log = s.log ++ (if s.upperOpen then [.up .closed] else []) := by
  unfold Layer.closing; split <;> simp_all [Layer.noted]
@[simp] theorem closing_acts  : (s.closing).acts = s.acts := by
  unfold Layer.closing; split <;> simp_all [Layer.noted]
@[simp] theorem rxNotified_isOpen  : (s.rxNotified).isOpen = s.isOpen := by
  unfold Layer.rxNotified; split <;> simp_all [Layer.noted]
@[simp] theorem rxNotified_upperOpen  : (s.rxNotified).upperOpen = s.upperOpen := by
  unfold Layer.rxNotified; split <;> simp_all [Layer.noted]
@[simp] theorem rxNotified_rxFlag  : (s.rxNotified).rxFlag = s.rxFlag := by
  unfold Layer.rxNotified; split <;> simp_all [Layer.noted]
@[simp] theorem rxNotified_lowerReady  : (s.rxNotified).lowerReady = s.lowerReady := by
  unfold Layer.rxNotified; split <;> simp_all [Layer.noted]
@[simp] theorem rxNotified_active  : (s.rxNotified).active = s.active := by
  unfold Layer.rxNotified; split <;> simp_all [Layer.noted]
@[simp] theorem rxNotified_pending  : (s.rxNotified).pending = s.pending := by
  unfold Layer.rxNotified; split <;> simp_all [Layer.noted]
@[simp] theorem rxNotified_stats  : (s.rxNotified).stats = s.stats := by
  unfold Layer.rxNotified; split <;> simp_all [Layer.noted]
@[simp] theorem rxNotified_tx  : (s.rxNotified).tx = s.tx := by
  unfold Layer.rxNotified; split <;> simp_all [Layer.noted]
@[simp] theorem rxNotified_buf  : (s.rxNotified).buf = s.buf := by
  unfold Layer.rxNotified; split <;> simp_all [Layer.noted]
@[simp] theorem rxNotified_payloadLen  : (s.rxNotified).payloadLen = s.payloadLen := by
  unfold Layer.rxNotified; split <;> simp_all [Layer.noted]
@[simp] theorem rxNotified_ini  : (s.rxNotified).ini = s.ini := by
  unfold Layer.rxNotified; split <;> simp_all [Layer.noted]
@[simp] theorem rxNotified_inAuth  : (s.rxNotified).inAuth = s.inAuth := by
  unfold Layer.rxNotified; split <;> simp_all [Layer.noted]
@[simp] theorem rxNotified_log  : (s.rxNotified).log = s.log ++ (if s.upperOpen then [.up .rxReady] else []) := by
  unfold Layer.rxNotified; split <;> simp_all [Layer.noted]
@[simp] theorem rxNotified_acts  : (s.rxNotified).acts = s.acts := by
  unfold Layer.rxNotified; split <;> simp_all [Layer.noted]
@[simp] theorem txNotified_isOpen  : (s.txNotified).isOpen = s.isOpen := by
  unfold Layer.txNotified; split <;> simp_all [Layer.noted]
@[simp] theorem txNotified_upperOpen  : (s.txNotified).upperOpen = s.upperOpen := by
  unfold Layer.txNotified; split <;> simp_all [Layer.noted]
@[simp] theorem txNotified_rxFlag  : (s.txNotified).rxFlag = s.rxFlag := by
  unfold Layer.txNotified; split <;> simp_all [Layer.noted]
@[simp] theorem txNotified_lowerReady  : (s.txNotified).lowerReady = s.lowerReady := by
  unfold Layer.txNotified; split <;> simp_all [Layer.noted]
@[simp] theorem txNotified_active  : (s.txNotified).active = s.active := by
  unfold Layer.txNotified; split <;> simp_all [Layer.noted]
@[simp] theorem txNotified_pending  : (s.txNotified).pending = s.pending := by
  unfold Layer.txNotified; split <;> simp_all [Layer.noted]
@[simp] theorem txNotified_stats  : (s.txNotified).stats = s.stats := by
  unfold Layer.txNotified; split <;> simp_all [Layer.noted]
@[simp] theorem txNotified_tx  : (s.txNotified).tx = s.tx := by
  unfold Layer.txNotified; split <;> simp_all [Layer.noted]
@[simp] theorem txNotified_buf  : (s.txNotified).buf = s.buf := by
  unfold Layer.txNotified; split <;> simp_all [Layer.noted]
@[simp] theorem txNotified_payloadLen  : (s.txNotified).payloadLen = s.payloadLen := by
  unfold Layer.txNotified; split <;> simp_all [Layer.noted]
@[simp] theorem txNotified_ini  : (s.txNotified).ini = s.ini := by
  unfold Layer.txNotified; split <;> simp_all [Layer.noted]
@[simp] theorem txNotified_inAuth  : (s.txNotified).inAuth = s.inAuth := by
  unfold Layer.txNotified; split <;> simp_all [Layer.noted]
@[simp] theorem txNotified_log  : (s.txNotified).log = s.log ++ (if s.upperOpen then [.up .txReady] else []) := by
  unfold Layer.txNotified; split <;> simp_all [Layer.noted]
@[simp] theorem txNotified_acts  : (s.txNotified).acts = s.acts := by
  unfold Layer.txNotified; split <;> simp_all [Layer.noted]
@[simp] theorem keyNoted_isOpen (o : Option (UInt64 × Bytes)) : (s.keyNoted o).isOpen = s.isOpen := by
  cases o <;> simp [Layer.keyNoted, keyObs, Layer.noted]
@[simp] theorem keyNoted_upperOpen (o : Option (UInt64 × Bytes)) : (s.keyNoted o).upperOpen = s.upperOpen := by
  cases o <;> simp [Layer.keyNoted, keyObs, Layer.noted]
@[simp] theorem keyNoted_rxFlag (o : Option (UInt64 × Bytes)) : (s.keyNoted o).rxFlag = s.rxFlag := by
  cases o <;> simp [Layer.keyNoted, keyObs, Layer.noted]
@[simp] theorem keyNoted_lowerReady (o : Option (UInt64 × Bytes)) : (s.keyNoted o).lowerReady = s.lowerReady := by
  cases o <;> simp [Layer.keyNoted, keyObs, Layer.noted]
@[simp] theorem keyNoted_active (o : Option (UInt64 × Bytes)) : (s.keyNoted o).active = s.active := by
  cases o <;> simp [Layer.keyNoted, keyObs, Layer.noted]
@[simp] theorem keyNoted_pending (o : Option (UInt64 × Bytes)) : (s.keyNoted o).pending = s.pending := by
  cases o <;> simp [Layer.keyNoted, keyObs, Layer.noted]
@[simp] theorem keyNoted_stats (o : Option (UInt64 × Bytes)) : (s.keyNoted o).stats = s.stats := by
  cases o <;> simp [Layer.keyNoted, keyObs, Layer.noted]
@[simp] theorem keyNoted_tx (o : Option (UInt64 × Bytes)) : (s.keyNoted o).tx = s.tx := by
  cases o <;> simp [Layer.keyNoted, keyObs, Layer.noted]
@[simp] theorem keyNoted_buf (o : Option (UInt64 × Bytes)) : (s.keyNoted o).buf = s.buf := by
  cases o <;> simp [Layer.keyNoted, keyObs, Layer.noted]
@[simp] theorem keyNoted_payloadLen (o : Option (UInt64 × Bytes)) : (s.keyNoted o).payloadLen = s.payloadLen := by
  cases o <;> simp [Layer.keyNoted, keyObs, Layer.noted]
@[simp] theorem keyNoted_ini (o : Option (UInt64 × Bytes)) : (s.keyNoted o).ini = s.ini := by
  cases o <;> simp [Layer.keyNoted, keyObs, Layer.noted]
@[simp] theorem keyNoted_inAuth (o : Option (UInt64 × Bytes)) : (s.keyNoted o).inAuth = s.inAuth := by
  cases o <;> simp [Layer.keyNoted, keyObs, Layer.noted]
@[simp] theorem keyNoted_log (o : Option (UInt64 × Bytes)) : (s.keyNoted o).log = s.log ++ keyObs o := by
  cases o <;> simp [Layer.keyNoted, keyObs, Layer.noted]
@[simp] theorem keyNoted_acts (o : Option (UInt64 × Bytes)) : (s.keyNoted o).acts = s.acts := by
  cases o <;> simp [Layer.keyNoted, keyObs, Layer.noted]
@[simp] theorem establishedIf_isOpen (n : Nat) : (s.establishedIf n).isOpen = s.isOpen := by
  unfold Layer.establishedIf; split <;> simp_all [Layer.noted]
@[simp] theorem establishedIf_upperOpen (n : Nat) : (s.establishedIf n).upperOpen = s.upperOpen := by
  unfold Layer.establishedIf; split <;> simp_all [Layer.noted]
@[simp] theorem establishedIf_rxFlag (n : Nat) : (s.establishedIf n).rxFlag = s.rxFlag := by
  unfold Layer.establishedIf; split <;> simp_all [Layer.noted]
@[simp] theorem establishedIf_lowerReady (n : Nat) : (s.establishedIf n).lowerReady = s.lowerReady := by
  unfold Layer.establishedIf; split <;> simp_all [Layer.noted]
@[simp] theorem establishedIf_active (n : Nat) : (s.establishedIf n).active = s.active := by
  unfold Layer.establishedIf; split <;> simp_all [Layer.noted]
@[simp] theorem establishedIf_pending (n : Nat) : (s.establishedIf n).pending = s.pending := by
  unfold Layer.establishedIf; split <;> simp_all [Layer.noted]
@[simp] theorem establishedIf_stats (n : Nat) : (s.establishedIf n).stats = s.stats := by
  unfold Layer.establishedIf; split <;> simp_all [Layer.noted]
@[simp] theorem establishedIf_tx (n : Nat) : (s.establishedIf n).tx = s.tx := by
  unfold Layer.establishedIf; split <;> simp_all [Layer.noted]
@[simp] theorem establishedIf_buf (n : Nat) : (s.establishedIf n).buf = s.buf := by
  unfold Layer.establishedIf; split <;> simp_all [Layer.noted]
@[simp] theorem establishedIf_payloadLen (n : Nat) : (s.establishedIf n).payloadLen = s.payloadLen := by
  unfold Layer.establishedIf; split <;> simp_all [Layer.noted]
@[simp] theorem establishedIf_ini (n : Nat) : (s.establishedIf n).ini = s.ini := by
  unfold Layer.establishedIf; split <;> simp_all [Layer.noted]
@[simp] theorem establishedIf_inAuth (n : Nat) : (s.establishedIf n).inAuth = s.inAuth := by
  unfold Layer.establishedIf; split <;> simp_all [Layer.noted]
@[simp] theorem establishedIf_log (n : Nat) : (s.establishedIf n).log = s.log ++ (if s.stats.numInit ≠ n then [.established s.pending.keys s.pending.algorithms s.pending.param] else []) := by
  unfold Layer.establishedIf; split <;> simp_all [Layer.noted]
@[simp] theorem establishedIf_acts (n : Nat) : (s.establishedIf n).acts = s.acts := by
  unfold Layer.establishedIf; split <;> simp_all [Layer.noted]
@[simp] theorem authFormatted_isOpen (b : Bool) (t : Int) : (s.authFormatted b t).isOpen = s.isOpen := by
  cases b <;> rfl
@[simp] theorem authFormatted_upperOpen (b : Bool) (t : Int) : (s.authFormatted b t).upperOpen = s.upperOpen := by
  cases b <;> rfl
@[simp] theorem authFormatted_rxFlag (b : Bool) (t : Int) : (s.authFormatted b t).rxFlag = s.rxFlag := by
  cases b <;> rfl
@[simp] theorem authFormatted_lowerReady (b : Bool) (t : Int) : (s.authFormatted b t).lowerReady = s.lowerReady := by
  cases b <;> rfl
@[simp] theorem authFormatted_active (b : Bool) (t : Int) : (s.authFormatted b t).active = if b then s.active else (s.active.formatAuth t s.tx.remainder).1 := by
  cases b <;> rfl
@[simp] theorem authFormatted_pending (b : Bool) (t : Int) : (s.authFormatted b t).pending = if b then (s.pending.formatAuth t s.tx.remainder).1 else s.pending := by
  cases b <;> rfl
@[simp] theorem authFormatted_stats (b : Bool) (t : Int) : (s.authFormatted b t).stats = s.stats := by
  cases b <;> rfl
@[simp] theorem authFormatted_tx (b : Bool) (t : Int) : (s.authFormatted b t).tx = s.tx := by
  cases b <;> rfl
@[simp] theorem authFormatted_buf (b : Bool) (t : Int) : (s.authFormatted b t).buf = s.buf := by
  cases b <;> rfl
@[simp] theorem authFormatted_payloadLen (b : Bool) (t : Int) : (s.authFormatted b t).payloadLen = s.payloadLen := by
  cases b <;> rfl
@[simp] theorem authFormatted_ini (b : Bool) (t : Int) : (s.authFormatted b t).ini = s.ini := by
  cases b <;> rfl
@[simp] theorem authFormatted_inAuth (b : Bool) (t : Int) : (s.authFormatted b t).inAuth = s.inAuth := by
  cases b <;> rfl
@[simp] theorem authFormatted_log (b : Bool) (t : Int) : (s.authFormatted b t).log = s.log := by
  cases b <;> rfl
@[simp] theorem authFormatted_acts (b : Bool) (t : Int) : (s.authFormatted b t).acts = s.acts ++ [(s.log.length, authAct b s.tx.remainder ((if b then s.pending else s.active).formatAuth t s.tx.remainder).2.1 ((if b then s.pending else s.active).formatAuth t s.tx.remainder).2.2)] := by
  cases b <;> rfl
@[simp] theorem authTaken_isOpen (x y : Bytes) : (s.authTaken x y).isOpen = s.isOpen := by
  unfold Layer.authTaken; split <;> simp_all [Layer.noted]
@[simp] theorem authTaken_upperOpen (x y : Bytes) : (s.authTaken x y).upperOpen = s.upperOpen := by
  unfold Layer.authTaken; split <;> simp_all [Layer.noted]
@[simp] theorem authTaken_rxFlag (x y : Bytes) : (s.authTaken x y).rxFlag = s.rxFlag := by
  unfold Layer.authTaken; split <;> simp_all [Layer.noted]
@[simp] theorem authTaken_lowerReady (x y : Bytes) : (s.authTaken x y).lowerReady = s.lowerReady := by
  unfold Layer.authTaken; split <;> simp_all [Layer.noted]
@[simp] theorem authTaken_active (x y : Bytes) : (s.authTaken x y).active = s.active := by
  unfold Layer.authTaken; split <;> simp_all [Layer.noted]
@[simp] theorem authTaken_pending (x y : Bytes) : (s.authTaken x y).pending = s.pending := by
  unfold Layer.authTaken; split <;> simp_all [Layer.noted]
@[simp] theorem authTaken_stats (x y : Bytes) : (s.authTaken x y).stats = s.stats := by
  unfold Layer.authTaken; split <;> simp_all [Layer.noted]
@[simp] theorem authTaken_tx (x y : Bytes) : (s.authTaken x y).tx = if x ≠ [] then s.tx.beginTransmit y else s.tx := by
  unfold Layer.authTaken; split <;> simp_all [Layer.noted]
@[simp] theorem authTaken_buf (x y : Bytes) : (s.authTaken x y).buf = s.buf := by
  unfold Layer.authTaken; split <;> simp_all [Layer.noted]
@[simp] theorem authTaken_payloadLen (x y : Bytes) : (s.authTaken x y).payloadLen = s.payloadLen := by
  unfold Layer.authTaken; split <;> simp_all [Layer.noted]
@[simp] theorem authTaken_ini (x y : Bytes) : (s.authTaken x y).ini = s.ini := by
  unfold Layer.authTaken; split <;> simp_all [Layer.noted]
@[simp] theorem authTaken_inAuth (x y : Bytes) : (s.authTaken x y).inAuth = s.inAuth := by
  unfold Layer.authTaken; split <;> simp_all [Layer.noted]
@[simp] theorem authTaken_log (x y : Bytes) : (s.authTaken x y).log = s.log := by
  unfold Layer.authTaken; split <;> simp_all [Layer.noted]
@[simp] theorem authTaken_acts (x y : Bytes) : (s.authTaken x y).acts = s.acts := by
  unfold Layer.authTaken; split <;> simp_all [Layer.noted]
@[simp] theorem authValidated_isOpen (c : Cfg) (m : SessionData) (t : Int) (x : Bytes) : (s.authValidated c m t x).isOpen = s.isOpen := rfl
@[simp] theorem authValidated_upperOpen (c : Cfg) (m : SessionData) (t : Int) (x : Bytes) : (s.authValidated c m t x).upperOpen = s.upperOpen := rfl
@[simp] theorem authValidated_rxFlag (c : Cfg) (m : SessionData) (t : Int) (x : Bytes) : (s.authValidated c m t x).rxFlag = s.rxFlag := rfl
@[simp] theorem authValidated_lowerReady (c : Cfg) (m : SessionData) (t : Int) (x : Bytes) : (s.authValidated c m t x).lowerReady = s.lowerReady := rfl
@[simp] theorem authValidated_active (c : Cfg) (m : SessionData) (t : Int) (x : Bytes) : (s.authValidated c m t x).active = s.active := rfl
@[simp] theorem authValidated_pending (c : Cfg) (m : SessionData) (t : Int) (x : Bytes) : (s.authValidated c m t x).pending = (s.pending.validateAuth s.stats m t c.bufLen).1 := rfl
@[simp] theorem authValidated_stats (c : Cfg) (m : SessionData) (t : Int) (x : Bytes) : (s.authValidated c m t x).stats = (s.pending.validateAuth s.stats m t c.bufLen).2.1 := rfl
@[simp] theorem authValidated_tx (c : Cfg) (m : SessionData) (t : Int) (x : Bytes) : (s.authValidated c m t x).tx = s.tx := rfl
@[simp] theorem authValidated_buf (c : Cfg) (m : SessionData) (t : Int) (x : Bytes) : (s.authValidated c m t x).buf = bufferAfter s.buf x (s.pending.validateAuth s.stats m t c.bufLen).2.2 := rfl
@[simp] theorem authValidated_payloadLen (c : Cfg) (m : SessionData) (t : Int) (x : Bytes) : (s.authValidated c m t x).payloadLen = s.payloadLen := rfl
@[simp] theorem authValidated_ini (c : Cfg) (m : SessionData) (t : Int) (x : Bytes) : (s.authValidated c m t x).ini = s.ini := rfl
@[simp] theorem authValidated_inAuth (c : Cfg) (m : SessionData) (t : Int) (x : Bytes) : (s.authValidated c m t x).inAuth = s.inAuth := rfl
@[simp] theorem authValidated_log (c : Cfg) (m : SessionData) (t : Int) (x : Bytes) : (s.authValidated c m t x).log = s.log := rfl
@[simp] theorem authValidated_acts (c : Cfg) (m : SessionData) (t : Int) (x : Bytes) : (s.authValidated c m t x).acts = s.acts ++ [(s.log.length, .checked true m (s.pending.validateAuth s.stats m t c.bufLen).2.2)] := rfl
@[simp] theorem dataValidated_isOpen (c : Cfg) (m : SessionData) (t : Int) (x : Bytes) : (s.dataValidated c m t x).isOpen = s.isOpen := rfl
@[simp] theorem dataValidated_upperOpen (c : Cfg) (m : SessionData) (t : Int) (x : Bytes) : (s.dataValidated c m t x).upperOpen = s.upperOpen := rfl
@[simp] theorem dataValidated_rxFlag (c : Cfg) (m : SessionData) (t : Int) (x : Bytes) : (s.dataValidated c m t x).rxFlag = s.rxFlag := rfl
@[simp] theorem dataValidated_lowerReady (c : Cfg) (m : SessionData) (t : Int) (x : Bytes) : (s.dataValidated c m t x).lowerReady = s.lowerReady := rfl
@[simp] theorem dataValidated_active (c : Cfg) (m : SessionData) (t : Int) (x : Bytes) : (s.dataValidated c m t x).active = (s.active.validateData s.stats m t c.bufLen).1 := rfl
@[simp] theorem dataValidated_pending (c : Cfg) (m : SessionData) (t : Int) (x : Bytes) : (s.dataValidated c m t x).pending = s.pending := rfl
@[simp] theorem dataValidated_stats (c : Cfg) (m : SessionData) (t : Int) (x : Bytes) : (s.dataValidated c m t x).stats = (s.active.validateData s.stats m t c.bufLen).2.1 := rfl
@[simp] theorem dataValidated_tx (c : Cfg) (m : SessionData) (t : Int) (x : Bytes) : (s.dataValidated c m t x).tx = s.tx := rfl
@[simp] theorem dataValidated_buf (c : Cfg) (m : SessionData) (t : Int) (x : Bytes) : (s.dataValidated c m t x).buf = bufferAfter s.buf x (s.active.validateData s.stats m t c.bufLen).2.2 := rfl
@[simp] theorem dataValidated_payloadLen (c : Cfg) (m : SessionData) (t : Int) (x : Bytes) : (s.dataValidated c m t x).payloadLen = s.payloadLen := rfl
@[simp] theorem dataValidated_ini (c : Cfg) (m : SessionData) (t : Int) (x : Bytes) : (s.dataValidated c m t x).ini = s.ini := rfl
@[simp] theorem dataValidated_inAuth (c : Cfg) (m : SessionData) (t : Int) (x : Bytes) : (s.dataValidated c m t x).inAuth = s.inAuth := rfl
@[simp] theorem dataValidated_log (c : Cfg) (m : SessionData) (t : Int) (x : Bytes) : (s.dataValidated c m t x).log = s.log := rfl
@[simp] theorem dataValidated_acts (c : Cfg) (m : SessionData) (t : Int) (x : Bytes) : (s.dataValidated c m t x).acts = s.acts ++ [(s.log.length, .checked false m (s.active.validateData s.stats m t c.bufLen).2.2)] := rfl
@[simp] theorem activated_isOpen  : (s.activated).isOpen = s.isOpen := rfl
@[simp] theorem activated_upperOpen  : (s.activated).upperOpen = s.upperOpen := rfl
@[simp] theorem activated_rxFlag  : (s.activated).rxFlag = s.rxFlag := rfl
@[simp] theorem activated_lowerReady  : (s.activated).lowerReady = s.lowerReady := rfl
@[simp] theorem activated_active  : (s.activated).active = s.pending := rfl
@[simp] theorem activated_pending  : (s.activated).pending = s.active.reset := rfl
@[simp] theorem activated_stats  : (s.activated).stats = s.stats := rfl
@[simp] theorem activated_tx  : (s.activated).tx = s.tx := rfl
@[simp] theorem activated_buf  : (s.activated).buf = s.buf := rfl
@[simp] theorem activated_payloadLen  : (s.activated).payloadLen = s.payloadLen := rfl
@[simp] theorem activated_ini  : (s.activated).ini = s.ini := rfl
@[simp] theorem activated_inAuth  : (s.activated).inAuth = s.inAuth := rfl
@[simp] theorem activated_log  : (s.activated).log = s.log := rfl
@[simp] theorem activated_acts  : (s.activated).acts = s.acts := rfl
@[simp] theorem initAuthOk_isOpen (c : Cfg) (p : Params) (m : SessionData) (t : Int) (x : Bytes) : (s.initAuthOk c p m t x).isOpen = s.isOpen := by
  unfold Layer.initAuthOk Layer.opening Layer.activated Layer.authValidated; dsimp only; split <;> simp_all [Layer.noted]
@[simp] theorem initAuthOk_upperOpen (c : Cfg) (p : Params) (m : SessionData) (t : Int) (x : Bytes) : (s.initAuthOk c p m t x).upperOpen = true := by
  unfold Layer.initAuthOk Layer.opening Layer.activated Layer.authValidated; dsimp only; split <;> simp_all [Layer.noted]
@[simp] theorem initAuthOk_rxFlag (c : Cfg) (p : Params) (m : SessionData) (t : Int) (x : Bytes) : (s.initAuthOk c p m t x).rxFlag = s.rxFlag := by
  unfold Layer.initAuthOk Layer.opening Layer.activated Layer.authValidated; dsimp only; split <;> simp_all [Layer.noted]
@[simp] theorem initAuthOk_lowerReady (c : Cfg) (p : Params) (m : SessionData) (t : Int) (x : Bytes) : (s.initAuthOk c p m t x).lowerReady = s.lowerReady := by
  unfold Layer.initAuthOk Layer.opening Layer.activated Layer.authValidated; dsimp only; split <;> simp_all [Layer.noted]
@[simp] theorem initAuthOk_active (c : Cfg) (p : Params) (m : SessionData) (t : Int) (x : Bytes) : (s.initAuthOk c p m t x).active = (s.pending.validateAuth s.stats m t c.bufLen).1 := by
  unfold Layer.initAuthOk Layer.opening Layer.activated Layer.authValidated; dsimp only; split <;> simp_all [Layer.noted]
@[simp] theorem initAuthOk_pending (c : Cfg) (p : Params) (m : SessionData) (t : Int) (x : Bytes) : (s.initAuthOk c p m t x).pending = s.active.reset := by
  unfold Layer.initAuthOk Layer.opening Layer.activated Layer.authValidated; dsimp only; split <;> simp_all [Layer.noted]
@[simp] theorem initAuthOk_stats (c : Cfg) (p : Params) (m : SessionData) (t : Int) (x : Bytes) : (s.initAuthOk c p m t x).stats = (s.pending.validateAuth s.stats m t c.bufLen).2.1 := by
  unfold Layer.initAuthOk Layer.opening Layer.activated Layer.authValidated; dsimp only; split <;> simp_all [Layer.noted]
@[simp] theorem initAuthOk_tx (c : Cfg) (p : Params) (m : SessionData) (t : Int) (x : Bytes) : (s.initAuthOk c p m t x).tx = s.tx := by
  unfold Layer.initAuthOk Layer.opening Layer.activated Layer.authValidated; dsimp only; split <;> simp_all [Layer.noted]
@[simp] theorem initAuthOk_buf (c : Cfg) (p : Params) (m : SessionData) (t : Int) (x : Bytes) : (s.initAuthOk c p m t x).buf = bufferAfter s.buf x (s.pending.validateAuth s.stats m t c.bufLen).2.2 := by
  unfold Layer.initAuthOk Layer.opening Layer.activated Layer.authValidated; dsimp only; split <;> simp_all [Layer.noted]
@[simp] theorem initAuthOk_payloadLen (c : Cfg) (p : Params) (m : SessionData) (t : Int) (x : Bytes) : (s.initAuthOk c p m t x).payloadLen = s.payloadLen := by
  unfold Layer.initAuthOk Layer.opening Layer.activated Layer.authValidated; dsimp only; split <;> simp_all [Layer.noted]
@[simp] theorem initAuthOk_ini (c : Cfg) (p : Params) (m : SessionData) (t : Int) (x : Bytes) : (s.initAuthOk c p m t x).ini = ({ s.ini with respTimer := none, required := false } : Ini).startSess ((s.pending.validateAuth s.stats m t c.bufLen).1.param.sessionStart + ms p.sessionTimeTriggerMs) := by
  unfold Layer.initAuthOk Layer.opening Layer.activated Layer.authValidated; dsimp only; split <;> simp_all [Layer.noted]
@[simp] theorem initAuthOk_inAuth (c : Cfg) (p : Params) (m : SessionData) (t : Int) (x : Bytes) : (s.initAuthOk c p m t x).inAuth = true := by
  unfold Layer.initAuthOk Layer.opening Layer.activated Layer.authValidated; dsimp only; split <;> simp_all [Layer.noted]
@[simp] theorem initAuthOk_log (c : Cfg) (p : Params) (m : SessionData) (t : Int) (x : Bytes) : (s.initAuthOk c p m t x).log = s.log ++ (if s.upperOpen then [] else [.up .opened]) := by
  unfold Layer.initAuthOk Layer.opening Layer.activated Layer.authValidated; dsimp only; split <;> simp_all [Layer.noted]
@[simp] theorem initAuthOk_acts (c : Cfg) (p : Params) (m : SessionData) (t : Int) (x : Bytes) : (s.initAuthOk c p m t x).acts = s.acts ++ [(s.log.length, .checked true m (s.pending.validateAuth s.stats m t c.bufLen).2.2)] := by
  unfold Layer.initAuthOk Layer.opening Layer.activated Layer.authValidated; dsimp only; split <;> simp_all [Layer.noted]
@[simp] theorem lowerClosing_isOpen (c : Cfg) : (s.lowerClosing c).isOpen = false := by
  unfold Layer.lowerClosing; dsimp only; cases c.role <;> simp [Layer.closing, Layer.noted] <;> split <;> simp_all
@[simp] theorem lowerClosing_upperOpen (c : Cfg) : (s.lowerClosing c).upperOpen = false := by
  unfold Layer.lowerClosing; dsimp only; cases c.role <;> simp [Layer.closing, Layer.noted] <;> split <;> simp_all
@[simp] theorem lowerClosing_rxFlag (c : Cfg) : (s.lowerClosing c).rxFlag = s.rxFlag := by
  unfold Layer.lowerClosing; dsimp only; cases c.role <;> simp [Layer.closing, Layer.noted] <;> split <;> simp_all
@[simp] theorem lowerClosing_lowerReady (c : Cfg) : (s.lowerClosing c).lowerReady = s.lowerReady := by
  unfold Layer.lowerClosing; dsimp only; cases c.role <;> simp [Layer.closing, Layer.noted] <;> split <;> simp_all
@[simp] theorem lowerClosing_active (c : Cfg) : (s.lowerClosing c).active = s.active.reset := by
  unfold Layer.lowerClosing; dsimp only; cases c.role <;> simp [Layer.closing, Layer.noted] <;> split <;> simp_all
@[simp] theorem lowerClosing_pending (c : Cfg) : (s.lowerClosing c).pending = s.pending.reset := by
  unfold Layer.lowerClosing; dsimp only; cases c.role <;> simp [Layer.closing, Layer.noted] <;> split <;> simp_all
@[simp] theorem lowerClosing_stats (c : Cfg) : (s.lowerClosing c).stats = s.stats := by
  unfold Layer.lowerClosing; dsimp only; cases c.role <;> simp [Layer.closing, Layer.noted] <;> split <;> simp_all
@[simp] theorem lowerClosing_tx (c : Cfg) : (s.lowerClosing c).tx = s.tx := by
  unfold Layer.lowerClosing; dsimp only; cases c.role <;> simp [Layer.closing, Layer.noted] <;> split <;> simp_all
@[simp] theorem lowerClosing_buf (c : Cfg) : (s.lowerClosing c).buf = s.buf := by
  unfold Layer.lowerClosing; dsimp only; cases c.role <;> simp [Layer.closing, Layer.noted] <;> split <;> simp_all
@[simp] theorem lowerClosing_payloadLen (c : Cfg) : (s.lowerClosing c).payloadLen = 0 := by
  unfold Layer.lowerClosing; dsimp only; cases c.role <;> simp [Layer.closing, Layer.noted] <;> split <;> simp_all
@[simp] theorem lowerClosing_ini (c : Cfg) : (s.lowerClosing c).ini = (match c.role with | .initiator _ _ => { s.ini with hs := .idle, respTimer := none, sessTimer := none, required := false } | .responder _ => s.ini) := by
  unfold Layer.lowerClosing; dsimp only; cases c.role <;> simp [Layer.closing, Layer.noted] <;> split <;> simp_all
@[simp] theorem lowerClosing_inAuth (c : Cfg) : (s.lowerClosing c).inAuth = s.inAuth := by
  unfold Layer.lowerClosing; dsimp only; cases c.role <;> simp [Layer.closing, Layer.noted] <;> split <;> simp_all
@[simp] theorem lowerClosing_log (c : Cfg) : (s.lowerClosing c).log = s.log ++ .lowerClose :: (if s.upperOpen then [.up .closed] else []) := by
  unfold Layer.lowerClosing; dsimp only; cases c.role <;> simp [Layer.closing, Layer.noted] <;> split <;> simp_all
@[simp] theorem lowerClosing_acts (c : Cfg) : (s.lowerClosing c).acts = s.acts := by
  unfold Layer.lowerClosing; dsimp only; cases c.role <;> simp [Layer.closing, Layer.noted] <;> split <;> simp_all
@[simp] theorem closedDown_isOpen (c : Cfg) : (s.closedDown c).isOpen = s.isOpen := rfl
@[simp] theorem closedDown_upperOpen (c : Cfg) : (s.closedDown c).upperOpen = s.upperOpen := rfl
@[simp] theorem closedDown_rxFlag (c : Cfg) : (s.closedDown c).rxFlag = (c.viaStack && s.rxFlag) := rfl
@[simp] theorem closedDown_lowerReady (c : Cfg) : (s.closedDown c).lowerReady = s.lowerReady := rfl
@[simp] theorem closedDown_active (c : Cfg) : (s.closedDown c).active = s.active := rfl
@[simp] theorem closedDown_pending (c : Cfg) : (s.closedDown c).pending = s.pending := rfl
@[simp] theorem closedDown_stats (c : Cfg) : (s.closedDown c).stats = s.stats := rfl
@[simp] theorem closedDown_tx (c : Cfg) : (s.closedDown c).tx = s.tx.reset := rfl
@[simp] theorem closedDown_buf (c : Cfg) : (s.closedDown c).buf = s.buf := rfl
@[simp] theorem closedDown_payloadLen (c : Cfg) : (s.closedDown c).payloadLen = s.payloadLen := rfl
@[simp] theorem closedDown_ini (c : Cfg) : (s.closedDown c).ini = s.ini := rfl
@[simp] theorem closedDown_inAuth (c : Cfg) : (s.closedDown c).inAuth = s.inAuth := rfl
@[simp] theorem closedDown_log (c : Cfg) : (s.closedDown c).log = s.log := rfl
@[simp] theorem closedDown_acts (c : Cfg) : (s.closedDown c).acts = s.acts ++ [(s.log.length, .discarded)] := rfl
end

end SSP21.Crypto
