import Verif.Kernel.Model

/-!
# What was published (C48, C102, C110)
-/

namespace Xeus.Spec

open Xeus

/-- The messages published, as they go to the publisher. -/
def wiresOf (es : List Ev) : List Multipart := es.filterMap fun | .pub _ _ w => some w | _ => none

/-- Those published on a channel. -/
def wiresOn (k : Chan) (es : List Ev) : List Multipart := es.filterMap fun | .pub c _ w => if c = k then some w else none | _ => none

end Xeus.Spec
