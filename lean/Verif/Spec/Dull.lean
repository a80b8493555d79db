import Verif.Spec.Run
/-!
# Specification vocabulary: executions that differ only in the own address and the time of the last acknowledgement
-/

namespace Utp

/-- The same socket with another own address and another time of the last acknowledgement. -/
def Socket.other (s : Socket) (a : Addr) (t : U32) : Socket := { s with localAddr := a, lastAckedTs := t }

/-- The same world with another own address and another time of the last acknowledgement. -/
def World.other (w : World) (a : Addr) (t : U32) : World := { w with s := w.s.other a t }

end Utp
