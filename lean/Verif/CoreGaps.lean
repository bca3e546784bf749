import Verif.CoreDemo

/-!
# C84 for parameters: what is lost next to a missing value
-/

namespace Openscm

/-- **C84** fails for parameters: of six values of a point timeseries the third is missing; a second view on the same time
points and in the same unit misses the next two as well, since values pass through the converter on writing and on
reading.  The view they were written through still shows them. -/
theorem C84_parameter :
    demo [points ["a"] "K" [0, 1, 2, 3, 4, 5], points ["a"] "K" [0, 1, 2, 3, 4, 5],
      .tSet 0 (.floats [.num 1, .num 2, .nan, .num 4, .num 5, .num 6]), .tGet 0, .tGet 1]
    = [.ok (.view 0), .ok (.view 1), .ok .done, .ok (.arr (.floats [.num 1, .num 2, .nan, .num 4, .num 5, .num 6])),
      .ok (.arr (.floats [.num 1, .num 2, .nan, .nan, .nan, .num 6]))] := by decide +kernel

end Openscm
