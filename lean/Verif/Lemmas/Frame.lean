import Verif.Lemmas.Ops
/-!
# Which fields each state change leaves alone (generated by listing the fields)
-/

namespace Utp

@[simp] theorem bumpAck_localAddr (s : Socket) (p : Packet) : (s.bumpAck p).localAddr = s.localAddr := by unfold Socket.bumpAck; split <;> rfl
@[simp] theorem bumpAck_connectedTo (s : Socket) (p : Packet) : (s.bumpAck p).connectedTo = s.connectedTo := by unfold Socket.bumpAck; split <;> rfl
@[simp] theorem bumpAck_senderId (s : Socket) (p : Packet) : (s.bumpAck p).senderId = s.senderId := by unfold Socket.bumpAck; split <;> rfl
@[simp] theorem bumpAck_receiverId (s : Socket) (p : Packet) : (s.bumpAck p).receiverId = s.receiverId := by unfold Socket.bumpAck; split <;> rfl
@[simp] theorem bumpAck_seqNr (s : Socket) (p : Packet) : (s.bumpAck p).seqNr = s.seqNr := by unfold Socket.bumpAck; split <;> rfl
@[simp] theorem bumpAck_state (s : Socket) (p : Packet) : (s.bumpAck p).state = s.state := by unfold Socket.bumpAck; split <;> rfl
@[simp] theorem bumpAck_incoming (s : Socket) (p : Packet) : (s.bumpAck p).incoming = s.incoming := by unfold Socket.bumpAck; split <;> rfl
@[simp] theorem bumpAck_sendWindow (s : Socket) (p : Packet) : (s.bumpAck p).sendWindow = s.sendWindow := by unfold Socket.bumpAck; split <;> rfl
@[simp] theorem bumpAck_unsent (s : Socket) (p : Packet) : (s.bumpAck p).unsent = s.unsent := by unfold Socket.bumpAck; split <;> rfl
@[simp] theorem bumpAck_dupAcks (s : Socket) (p : Packet) : (s.bumpAck p).dupAcks = s.dupAcks := by unfold Socket.bumpAck; split <;> rfl
@[simp] theorem bumpAck_lastAcked (s : Socket) (p : Packet) : (s.bumpAck p).lastAcked = s.lastAcked := by unfold Socket.bumpAck; split <;> rfl
@[simp] theorem bumpAck_lastAckedTs (s : Socket) (p : Packet) : (s.bumpAck p).lastAckedTs = s.lastAckedTs := by unfold Socket.bumpAck; split <;> rfl
@[simp] theorem bumpAck_lastDropped (s : Socket) (p : Packet) : (s.bumpAck p).lastDropped = s.lastDropped := by unfold Socket.bumpAck; split <;> rfl
@[simp] theorem bumpAck_rtt (s : Socket) (p : Packet) : (s.bumpAck p).rtt = s.rtt := by unfold Socket.bumpAck; split <;> rfl
@[simp] theorem bumpAck_rttVar (s : Socket) (p : Packet) : (s.bumpAck p).rttVar = s.rttVar := by unfold Socket.bumpAck; split <;> rfl
@[simp] theorem bumpAck_pending (s : Socket) (p : Packet) : (s.bumpAck p).pending = s.pending := by unfold Socket.bumpAck; split <;> rfl
@[simp] theorem bumpAck_currWindow (s : Socket) (p : Packet) : (s.bumpAck p).currWindow = s.currWindow := by unfold Socket.bumpAck; split <;> rfl
@[simp] theorem bumpAck_remoteWnd (s : Socket) (p : Packet) : (s.bumpAck p).remoteWnd = s.remoteWnd := by unfold Socket.bumpAck; split <;> rfl
@[simp] theorem bumpAck_baseDelays (s : Socket) (p : Packet) : (s.bumpAck p).baseDelays = s.baseDelays := by unfold Socket.bumpAck; split <;> rfl
@[simp] theorem bumpAck_currDelays (s : Socket) (p : Packet) : (s.bumpAck p).currDelays = s.currDelays := by unfold Socket.bumpAck; split <;> rfl
@[simp] theorem bumpAck_theirDelay (s : Socket) (p : Packet) : (s.bumpAck p).theirDelay = s.theirDelay := by unfold Socket.bumpAck; split <;> rfl
@[simp] theorem bumpAck_lastRollover (s : Socket) (p : Packet) : (s.bumpAck p).lastRollover = s.lastRollover := by unfold Socket.bumpAck; split <;> rfl
@[simp] theorem bumpAck_congTimeout (s : Socket) (p : Packet) : (s.bumpAck p).congTimeout = s.congTimeout := by unfold Socket.bumpAck; split <;> rfl
@[simp] theorem bumpAck_cwnd (s : Socket) (p : Packet) : (s.bumpAck p).cwnd = s.cwnd := by unfold Socket.bumpAck; split <;> rfl
@[simp] theorem bumpAck_maxRetries (s : Socket) (p : Packet) : (s.bumpAck p).maxRetries = s.maxRetries := by unfold Socket.bumpAck; split <;> rfl

@[simp] theorem advanceIncoming_localAddr (s : Socket) : s.advanceIncoming.localAddr = s.localAddr := by unfold Socket.advanceIncoming; split <;> rfl
@[simp] theorem advanceIncoming_connectedTo (s : Socket) : s.advanceIncoming.connectedTo = s.connectedTo := by unfold Socket.advanceIncoming; split <;> rfl
@[simp] theorem advanceIncoming_senderId (s : Socket) : s.advanceIncoming.senderId = s.senderId := by unfold Socket.advanceIncoming; split <;> rfl
@[simp] theorem advanceIncoming_receiverId (s : Socket) : s.advanceIncoming.receiverId = s.receiverId := by unfold Socket.advanceIncoming; split <;> rfl
@[simp] theorem advanceIncoming_seqNr (s : Socket) : s.advanceIncoming.seqNr = s.seqNr := by unfold Socket.advanceIncoming; split <;> rfl
@[simp] theorem advanceIncoming_state (s : Socket) : s.advanceIncoming.state = s.state := by unfold Socket.advanceIncoming; split <;> rfl
@[simp] theorem advanceIncoming_sendWindow (s : Socket) : s.advanceIncoming.sendWindow = s.sendWindow := by unfold Socket.advanceIncoming; split <;> rfl
@[simp] theorem advanceIncoming_unsent (s : Socket) : s.advanceIncoming.unsent = s.unsent := by unfold Socket.advanceIncoming; split <;> rfl
@[simp] theorem advanceIncoming_dupAcks (s : Socket) : s.advanceIncoming.dupAcks = s.dupAcks := by unfold Socket.advanceIncoming; split <;> rfl
@[simp] theorem advanceIncoming_lastAcked (s : Socket) : s.advanceIncoming.lastAcked = s.lastAcked := by unfold Socket.advanceIncoming; split <;> rfl
@[simp] theorem advanceIncoming_lastAckedTs (s : Socket) : s.advanceIncoming.lastAckedTs = s.lastAckedTs := by unfold Socket.advanceIncoming; split <;> rfl
@[simp] theorem advanceIncoming_rtt (s : Socket) : s.advanceIncoming.rtt = s.rtt := by unfold Socket.advanceIncoming; split <;> rfl
@[simp] theorem advanceIncoming_rttVar (s : Socket) : s.advanceIncoming.rttVar = s.rttVar := by unfold Socket.advanceIncoming; split <;> rfl
@[simp] theorem advanceIncoming_pending (s : Socket) : s.advanceIncoming.pending = s.pending := by unfold Socket.advanceIncoming; split <;> rfl
@[simp] theorem advanceIncoming_currWindow (s : Socket) : s.advanceIncoming.currWindow = s.currWindow := by unfold Socket.advanceIncoming; split <;> rfl
@[simp] theorem advanceIncoming_remoteWnd (s : Socket) : s.advanceIncoming.remoteWnd = s.remoteWnd := by unfold Socket.advanceIncoming; split <;> rfl
@[simp] theorem advanceIncoming_baseDelays (s : Socket) : s.advanceIncoming.baseDelays = s.baseDelays := by unfold Socket.advanceIncoming; split <;> rfl
@[simp] theorem advanceIncoming_currDelays (s : Socket) : s.advanceIncoming.currDelays = s.currDelays := by unfold Socket.advanceIncoming; split <;> rfl
@[simp] theorem advanceIncoming_theirDelay (s : Socket) : s.advanceIncoming.theirDelay = s.theirDelay := by unfold Socket.advanceIncoming; split <;> rfl
@[simp] theorem advanceIncoming_lastRollover (s : Socket) : s.advanceIncoming.lastRollover = s.lastRollover := by unfold Socket.advanceIncoming; split <;> rfl
@[simp] theorem advanceIncoming_congTimeout (s : Socket) : s.advanceIncoming.congTimeout = s.congTimeout := by unfold Socket.advanceIncoming; split <;> rfl
@[simp] theorem advanceIncoming_cwnd (s : Socket) : s.advanceIncoming.cwnd = s.cwnd := by unfold Socket.advanceIncoming; split <;> rfl
@[simp] theorem advanceIncoming_maxRetries (s : Socket) : s.advanceIncoming.maxRetries = s.maxRetries := by unfold Socket.advanceIncoming; split <;> rfl

@[simp] theorem takePending_localAddr (s : Socket) (n : Nat) : (s.takePending n).2.localAddr = s.localAddr := by unfold Socket.takePending; simp only; split <;> simp
@[simp] theorem takeHead_localAddr (s : Socket) (pl : Bytes) (n : Nat) : (s.takeHead pl n).localAddr = s.localAddr := by unfold Socket.takeHead; split <;> simp
@[simp] theorem takePending_connectedTo (s : Socket) (n : Nat) : (s.takePending n).2.connectedTo = s.connectedTo := by unfold Socket.takePending; simp only; split <;> simp
@[simp] theorem takeHead_connectedTo (s : Socket) (pl : Bytes) (n : Nat) : (s.takeHead pl n).connectedTo = s.connectedTo := by unfold Socket.takeHead; split <;> simp
@[simp] theorem takePending_senderId (s : Socket) (n : Nat) : (s.takePending n).2.senderId = s.senderId := by unfold Socket.takePending; simp only; split <;> simp
@[simp] theorem takeHead_senderId (s : Socket) (pl : Bytes) (n : Nat) : (s.takeHead pl n).senderId = s.senderId := by unfold Socket.takeHead; split <;> simp
@[simp] theorem takePending_receiverId (s : Socket) (n : Nat) : (s.takePending n).2.receiverId = s.receiverId := by unfold Socket.takePending; simp only; split <;> simp
@[simp] theorem takeHead_receiverId (s : Socket) (pl : Bytes) (n : Nat) : (s.takeHead pl n).receiverId = s.receiverId := by unfold Socket.takeHead; split <;> simp
@[simp] theorem takePending_seqNr (s : Socket) (n : Nat) : (s.takePending n).2.seqNr = s.seqNr := by unfold Socket.takePending; simp only; split <;> simp
@[simp] theorem takeHead_seqNr (s : Socket) (pl : Bytes) (n : Nat) : (s.takeHead pl n).seqNr = s.seqNr := by unfold Socket.takeHead; split <;> simp
@[simp] theorem takePending_sendWindow (s : Socket) (n : Nat) : (s.takePending n).2.sendWindow = s.sendWindow := by unfold Socket.takePending; simp only; split <;> simp
@[simp] theorem takeHead_sendWindow (s : Socket) (pl : Bytes) (n : Nat) : (s.takeHead pl n).sendWindow = s.sendWindow := by unfold Socket.takeHead; split <;> simp
@[simp] theorem takePending_unsent (s : Socket) (n : Nat) : (s.takePending n).2.unsent = s.unsent := by unfold Socket.takePending; simp only; split <;> simp
@[simp] theorem takeHead_unsent (s : Socket) (pl : Bytes) (n : Nat) : (s.takeHead pl n).unsent = s.unsent := by unfold Socket.takeHead; split <;> simp
@[simp] theorem takePending_dupAcks (s : Socket) (n : Nat) : (s.takePending n).2.dupAcks = s.dupAcks := by unfold Socket.takePending; simp only; split <;> simp
@[simp] theorem takeHead_dupAcks (s : Socket) (pl : Bytes) (n : Nat) : (s.takeHead pl n).dupAcks = s.dupAcks := by unfold Socket.takeHead; split <;> simp
@[simp] theorem takePending_lastAcked (s : Socket) (n : Nat) : (s.takePending n).2.lastAcked = s.lastAcked := by unfold Socket.takePending; simp only; split <;> simp
@[simp] theorem takeHead_lastAcked (s : Socket) (pl : Bytes) (n : Nat) : (s.takeHead pl n).lastAcked = s.lastAcked := by unfold Socket.takeHead; split <;> simp
@[simp] theorem takePending_lastAckedTs (s : Socket) (n : Nat) : (s.takePending n).2.lastAckedTs = s.lastAckedTs := by unfold Socket.takePending; simp only; split <;> simp
@[simp] theorem takeHead_lastAckedTs (s : Socket) (pl : Bytes) (n : Nat) : (s.takeHead pl n).lastAckedTs = s.lastAckedTs := by unfold Socket.takeHead; split <;> simp
@[simp] theorem takePending_rtt (s : Socket) (n : Nat) : (s.takePending n).2.rtt = s.rtt := by unfold Socket.takePending; simp only; split <;> simp
@[simp] theorem takeHead_rtt (s : Socket) (pl : Bytes) (n : Nat) : (s.takeHead pl n).rtt = s.rtt := by unfold Socket.takeHead; split <;> simp
@[simp] theorem takePending_rttVar (s : Socket) (n : Nat) : (s.takePending n).2.rttVar = s.rttVar := by unfold Socket.takePending; simp only; split <;> simp
@[simp] theorem takeHead_rttVar (s : Socket) (pl : Bytes) (n : Nat) : (s.takeHead pl n).rttVar = s.rttVar := by unfold Socket.takeHead; split <;> simp
@[simp] theorem takePending_currWindow (s : Socket) (n : Nat) : (s.takePending n).2.currWindow = s.currWindow := by unfold Socket.takePending; simp only; split <;> simp
@[simp] theorem takeHead_currWindow (s : Socket) (pl : Bytes) (n : Nat) : (s.takeHead pl n).currWindow = s.currWindow := by unfold Socket.takeHead; split <;> simp
@[simp] theorem takePending_remoteWnd (s : Socket) (n : Nat) : (s.takePending n).2.remoteWnd = s.remoteWnd := by unfold Socket.takePending; simp only; split <;> simp
@[simp] theorem takeHead_remoteWnd (s : Socket) (pl : Bytes) (n : Nat) : (s.takeHead pl n).remoteWnd = s.remoteWnd := by unfold Socket.takeHead; split <;> simp
@[simp] theorem takePending_baseDelays (s : Socket) (n : Nat) : (s.takePending n).2.baseDelays = s.baseDelays := by unfold Socket.takePending; simp only; split <;> simp
@[simp] theorem takeHead_baseDelays (s : Socket) (pl : Bytes) (n : Nat) : (s.takeHead pl n).baseDelays = s.baseDelays := by unfold Socket.takeHead; split <;> simp
@[simp] theorem takePending_currDelays (s : Socket) (n : Nat) : (s.takePending n).2.currDelays = s.currDelays := by unfold Socket.takePending; simp only; split <;> simp
@[simp] theorem takeHead_currDelays (s : Socket) (pl : Bytes) (n : Nat) : (s.takeHead pl n).currDelays = s.currDelays := by unfold Socket.takeHead; split <;> simp
@[simp] theorem takePending_theirDelay (s : Socket) (n : Nat) : (s.takePending n).2.theirDelay = s.theirDelay := by unfold Socket.takePending; simp only; split <;> simp
@[simp] theorem takeHead_theirDelay (s : Socket) (pl : Bytes) (n : Nat) : (s.takeHead pl n).theirDelay = s.theirDelay := by unfold Socket.takeHead; split <;> simp
@[simp] theorem takePending_lastRollover (s : Socket) (n : Nat) : (s.takePending n).2.lastRollover = s.lastRollover := by unfold Socket.takePending; simp only; split <;> simp
@[simp] theorem takeHead_lastRollover (s : Socket) (pl : Bytes) (n : Nat) : (s.takeHead pl n).lastRollover = s.lastRollover := by unfold Socket.takeHead; split <;> simp
@[simp] theorem takePending_congTimeout (s : Socket) (n : Nat) : (s.takePending n).2.congTimeout = s.congTimeout := by unfold Socket.takePending; simp only; split <;> simp
@[simp] theorem takeHead_congTimeout (s : Socket) (pl : Bytes) (n : Nat) : (s.takeHead pl n).congTimeout = s.congTimeout := by unfold Socket.takeHead; split <;> simp
@[simp] theorem takePending_cwnd (s : Socket) (n : Nat) : (s.takePending n).2.cwnd = s.cwnd := by unfold Socket.takePending; simp only; split <;> simp
@[simp] theorem takeHead_cwnd (s : Socket) (pl : Bytes) (n : Nat) : (s.takeHead pl n).cwnd = s.cwnd := by unfold Socket.takeHead; split <;> simp
@[simp] theorem takePending_maxRetries (s : Socket) (n : Nat) : (s.takePending n).2.maxRetries = s.maxRetries := by unfold Socket.takePending; simp only; split <;> simp
@[simp] theorem takeHead_maxRetries (s : Socket) (pl : Bytes) (n : Nat) : (s.takeHead pl n).maxRetries = s.maxRetries := by unfold Socket.takeHead; split <;> simp

theorem onNewAck_localAddr {E : Env} {s s' : Socket} {i : Nat} {p : Packet} {t : U32} (h : s.onNewAck E i p t = some s') :
    s'.localAddr = s.localAddr := by obtain ⟨_, _, _, _, _, _, _, rfl⟩ := onNewAck_shape h; rfl
theorem onNewAck_connectedTo {E : Env} {s s' : Socket} {i : Nat} {p : Packet} {t : U32} (h : s.onNewAck E i p t = some s') :
    s'.connectedTo = s.connectedTo := by obtain ⟨_, _, _, _, _, _, _, rfl⟩ := onNewAck_shape h; rfl
theorem onNewAck_senderId {E : Env} {s s' : Socket} {i : Nat} {p : Packet} {t : U32} (h : s.onNewAck E i p t = some s') :
    s'.senderId = s.senderId := by obtain ⟨_, _, _, _, _, _, _, rfl⟩ := onNewAck_shape h; rfl
theorem onNewAck_receiverId {E : Env} {s s' : Socket} {i : Nat} {p : Packet} {t : U32} (h : s.onNewAck E i p t = some s') :
    s'.receiverId = s.receiverId := by obtain ⟨_, _, _, _, _, _, _, rfl⟩ := onNewAck_shape h; rfl
theorem onNewAck_seqNr {E : Env} {s s' : Socket} {i : Nat} {p : Packet} {t : U32} (h : s.onNewAck E i p t = some s') :
    s'.seqNr = s.seqNr := by obtain ⟨_, _, _, _, _, _, _, rfl⟩ := onNewAck_shape h; rfl
theorem onNewAck_ackNr {E : Env} {s s' : Socket} {i : Nat} {p : Packet} {t : U32} (h : s.onNewAck E i p t = some s') :
    s'.ackNr = s.ackNr := by obtain ⟨_, _, _, _, _, _, _, rfl⟩ := onNewAck_shape h; rfl
theorem onNewAck_state {E : Env} {s s' : Socket} {i : Nat} {p : Packet} {t : U32} (h : s.onNewAck E i p t = some s') :
    s'.state = s.state := by obtain ⟨_, _, _, _, _, _, _, rfl⟩ := onNewAck_shape h; rfl
theorem onNewAck_incoming {E : Env} {s s' : Socket} {i : Nat} {p : Packet} {t : U32} (h : s.onNewAck E i p t = some s') :
    s'.incoming = s.incoming := by obtain ⟨_, _, _, _, _, _, _, rfl⟩ := onNewAck_shape h; rfl
theorem onNewAck_sendWindow {E : Env} {s s' : Socket} {i : Nat} {p : Packet} {t : U32} (h : s.onNewAck E i p t = some s') :
    s'.sendWindow = s.sendWindow := by obtain ⟨_, _, _, _, _, _, _, rfl⟩ := onNewAck_shape h; rfl
theorem onNewAck_unsent {E : Env} {s s' : Socket} {i : Nat} {p : Packet} {t : U32} (h : s.onNewAck E i p t = some s') :
    s'.unsent = s.unsent := by obtain ⟨_, _, _, _, _, _, _, rfl⟩ := onNewAck_shape h; rfl
theorem onNewAck_dupAcks {E : Env} {s s' : Socket} {i : Nat} {p : Packet} {t : U32} (h : s.onNewAck E i p t = some s') :
    s'.dupAcks = s.dupAcks := by obtain ⟨_, _, _, _, _, _, _, rfl⟩ := onNewAck_shape h; rfl
theorem onNewAck_lastAcked {E : Env} {s s' : Socket} {i : Nat} {p : Packet} {t : U32} (h : s.onNewAck E i p t = some s') :
    s'.lastAcked = s.lastAcked := by obtain ⟨_, _, _, _, _, _, _, rfl⟩ := onNewAck_shape h; rfl
theorem onNewAck_lastAckedTs {E : Env} {s s' : Socket} {i : Nat} {p : Packet} {t : U32} (h : s.onNewAck E i p t = some s') :
    s'.lastAckedTs = s.lastAckedTs := by obtain ⟨_, _, _, _, _, _, _, rfl⟩ := onNewAck_shape h; rfl
theorem onNewAck_lastDropped {E : Env} {s s' : Socket} {i : Nat} {p : Packet} {t : U32} (h : s.onNewAck E i p t = some s') :
    s'.lastDropped = s.lastDropped := by obtain ⟨_, _, _, _, _, _, _, rfl⟩ := onNewAck_shape h; rfl
theorem onNewAck_pending {E : Env} {s s' : Socket} {i : Nat} {p : Packet} {t : U32} (h : s.onNewAck E i p t = some s') :
    s'.pending = s.pending := by obtain ⟨_, _, _, _, _, _, _, rfl⟩ := onNewAck_shape h; rfl
theorem onNewAck_currWindow {E : Env} {s s' : Socket} {i : Nat} {p : Packet} {t : U32} (h : s.onNewAck E i p t = some s') :
    s'.currWindow = s.currWindow := by obtain ⟨_, _, _, _, _, _, _, rfl⟩ := onNewAck_shape h; rfl
theorem onNewAck_remoteWnd {E : Env} {s s' : Socket} {i : Nat} {p : Packet} {t : U32} (h : s.onNewAck E i p t = some s') :
    s'.remoteWnd = s.remoteWnd := by obtain ⟨_, _, _, _, _, _, _, rfl⟩ := onNewAck_shape h; rfl
theorem onNewAck_theirDelay {E : Env} {s s' : Socket} {i : Nat} {p : Packet} {t : U32} (h : s.onNewAck E i p t = some s') :
    s'.theirDelay = s.theirDelay := by obtain ⟨_, _, _, _, _, _, _, rfl⟩ := onNewAck_shape h; rfl
theorem onNewAck_maxRetries {E : Env} {s s' : Socket} {i : Nat} {p : Packet} {t : U32} (h : s.onNewAck E i p t = some s') :
    s'.maxRetries = s.maxRetries := by obtain ⟨_, _, _, _, _, _, _, rfl⟩ := onNewAck_shape h; rfl

theorem advanceSendWindow_localAddr {E : Env} {s s' : Socket} (h : s.advanceSendWindow E = some s') :
    s'.localAddr = s.localAddr := by obtain ⟨_, _, rfl⟩ := advanceSendWindow_shape h; rfl
theorem advanceSendWindow_connectedTo {E : Env} {s s' : Socket} (h : s.advanceSendWindow E = some s') :
    s'.connectedTo = s.connectedTo := by obtain ⟨_, _, rfl⟩ := advanceSendWindow_shape h; rfl
theorem advanceSendWindow_senderId {E : Env} {s s' : Socket} (h : s.advanceSendWindow E = some s') :
    s'.senderId = s.senderId := by obtain ⟨_, _, rfl⟩ := advanceSendWindow_shape h; rfl
theorem advanceSendWindow_receiverId {E : Env} {s s' : Socket} (h : s.advanceSendWindow E = some s') :
    s'.receiverId = s.receiverId := by obtain ⟨_, _, rfl⟩ := advanceSendWindow_shape h; rfl
theorem advanceSendWindow_seqNr {E : Env} {s s' : Socket} (h : s.advanceSendWindow E = some s') :
    s'.seqNr = s.seqNr := by obtain ⟨_, _, rfl⟩ := advanceSendWindow_shape h; rfl
theorem advanceSendWindow_ackNr {E : Env} {s s' : Socket} (h : s.advanceSendWindow E = some s') :
    s'.ackNr = s.ackNr := by obtain ⟨_, _, rfl⟩ := advanceSendWindow_shape h; rfl
theorem advanceSendWindow_state {E : Env} {s s' : Socket} (h : s.advanceSendWindow E = some s') :
    s'.state = s.state := by obtain ⟨_, _, rfl⟩ := advanceSendWindow_shape h; rfl
theorem advanceSendWindow_incoming {E : Env} {s s' : Socket} (h : s.advanceSendWindow E = some s') :
    s'.incoming = s.incoming := by obtain ⟨_, _, rfl⟩ := advanceSendWindow_shape h; rfl
theorem advanceSendWindow_unsent {E : Env} {s s' : Socket} (h : s.advanceSendWindow E = some s') :
    s'.unsent = s.unsent := by obtain ⟨_, _, rfl⟩ := advanceSendWindow_shape h; rfl
theorem advanceSendWindow_dupAcks {E : Env} {s s' : Socket} (h : s.advanceSendWindow E = some s') :
    s'.dupAcks = s.dupAcks := by obtain ⟨_, _, rfl⟩ := advanceSendWindow_shape h; rfl
theorem advanceSendWindow_lastAcked {E : Env} {s s' : Socket} (h : s.advanceSendWindow E = some s') :
    s'.lastAcked = s.lastAcked := by obtain ⟨_, _, rfl⟩ := advanceSendWindow_shape h; rfl
theorem advanceSendWindow_lastAckedTs {E : Env} {s s' : Socket} (h : s.advanceSendWindow E = some s') :
    s'.lastAckedTs = s.lastAckedTs := by obtain ⟨_, _, rfl⟩ := advanceSendWindow_shape h; rfl
theorem advanceSendWindow_lastDropped {E : Env} {s s' : Socket} (h : s.advanceSendWindow E = some s') :
    s'.lastDropped = s.lastDropped := by obtain ⟨_, _, rfl⟩ := advanceSendWindow_shape h; rfl
theorem advanceSendWindow_rtt {E : Env} {s s' : Socket} (h : s.advanceSendWindow E = some s') :
    s'.rtt = s.rtt := by obtain ⟨_, _, rfl⟩ := advanceSendWindow_shape h; rfl
theorem advanceSendWindow_rttVar {E : Env} {s s' : Socket} (h : s.advanceSendWindow E = some s') :
    s'.rttVar = s.rttVar := by obtain ⟨_, _, rfl⟩ := advanceSendWindow_shape h; rfl
theorem advanceSendWindow_pending {E : Env} {s s' : Socket} (h : s.advanceSendWindow E = some s') :
    s'.pending = s.pending := by obtain ⟨_, _, rfl⟩ := advanceSendWindow_shape h; rfl
theorem advanceSendWindow_remoteWnd {E : Env} {s s' : Socket} (h : s.advanceSendWindow E = some s') :
    s'.remoteWnd = s.remoteWnd := by obtain ⟨_, _, rfl⟩ := advanceSendWindow_shape h; rfl
theorem advanceSendWindow_baseDelays {E : Env} {s s' : Socket} (h : s.advanceSendWindow E = some s') :
    s'.baseDelays = s.baseDelays := by obtain ⟨_, _, rfl⟩ := advanceSendWindow_shape h; rfl
theorem advanceSendWindow_currDelays {E : Env} {s s' : Socket} (h : s.advanceSendWindow E = some s') :
    s'.currDelays = s.currDelays := by obtain ⟨_, _, rfl⟩ := advanceSendWindow_shape h; rfl
theorem advanceSendWindow_theirDelay {E : Env} {s s' : Socket} (h : s.advanceSendWindow E = some s') :
    s'.theirDelay = s.theirDelay := by obtain ⟨_, _, rfl⟩ := advanceSendWindow_shape h; rfl
theorem advanceSendWindow_lastRollover {E : Env} {s s' : Socket} (h : s.advanceSendWindow E = some s') :
    s'.lastRollover = s.lastRollover := by obtain ⟨_, _, rfl⟩ := advanceSendWindow_shape h; rfl
theorem advanceSendWindow_congTimeout {E : Env} {s s' : Socket} (h : s.advanceSendWindow E = some s') :
    s'.congTimeout = s.congTimeout := by obtain ⟨_, _, rfl⟩ := advanceSendWindow_shape h; rfl
theorem advanceSendWindow_cwnd {E : Env} {s s' : Socket} (h : s.advanceSendWindow E = some s') :
    s'.cwnd = s.cwnd := by obtain ⟨_, _, rfl⟩ := advanceSendWindow_shape h; rfl
theorem advanceSendWindow_maxRetries {E : Env} {s s' : Socket} (h : s.advanceSendWindow E = some s') :
    s'.maxRetries = s.maxRetries := by obtain ⟨_, _, rfl⟩ := advanceSendWindow_shape h; rfl

@[simp] theorem setS_s (w : World) (s : Socket) : (w.setS s).s = s := rfl
@[simp] theorem setS_log (w : World) (s : Socket) : (w.setS s).log = w.log := rfl
@[simp] theorem setS_nNet (w : World) (s : Socket) : (w.setS s).nNet = w.nNet := rfl
@[simp] theorem setS_nSnd (w : World) (s : Socket) : (w.setS s).nSnd = w.nSnd := rfl

end Utp
