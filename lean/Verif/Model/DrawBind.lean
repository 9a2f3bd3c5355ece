import Verif.Model.UniformInt

namespace Boost.Random

/-- Drawing first from one and then from another distribution. -/
def Draw.bind {α β : Type} (r : Draw α) (f : α → List Int → Draw β) : Draw β :=
  match r with
  | .done u rest => f u rest
  | .more => .more
  | .ub => .ub

end Boost.Random
