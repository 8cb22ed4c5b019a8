import Verif.Spec.Hang
import Verif.Spec.Mnist

/-! # An order of events in which the example of the repository waits for ever

On tile 3 the cores 6 and 7 and the tile process ask for words before they are there. When the words from 1680 are
written, which core 6 asks for, core 7 gets its words and core 6, which has asked after it, is not looked at. -/
namespace Ramwich.Spec

/-- The moves. -/
def mnistHang : List WaitMove :=
  [.go (.core 0 0), .go (.core 0 1), .go (.core 0 2), .go (.core 0 3), .go (.core 0 4), .go (.core 0 5),
   .go (.core 0 6), .go (.core 0 7), .go (.core 1 0), .go (.core 1 1), .go (.core 1 2), .go (.core 1 3),
   .go (.core 1 4), .go (.core 1 5), .go (.core 1 6), .go (.core 1 7), .go (.core 4 1), .go (.core 4 2),
   .go (.core 4 3), .go (.core 4 4), .go (.core 4 5), .go (.core 4 6), .go (.core 4 7), .go (.tile 0),
   .go (.tile 0), .go (.tile 0), .go (.tile 0), .go (.tile 0), .go (.tile 0), .go (.tile 0), .go (.tile 3),
   .go (.tile 3), .go (.tile 3), .go (.tile 3), .go (.tile 3), .go (.tile 3), .go (.tile 3), .go (.core 3 0),
   .go (.core 3 0), .go (.core 3 0), .go (.core 3 0), .go (.core 3 0), .go (.core 3 0), .go (.core 3 1),
   .go (.core 3 1), .go (.core 3 1), .go (.core 3 1), .go (.core 3 1), .go (.core 3 1), .go (.core 3 3),
   .go (.core 3 6), .go (.tile 0), .go (.tile 3), .go (.core 3 0), .go (.core 3 0), .go (.core 3 0),
   .go (.core 3 0), .go (.core 3 0), .go (.core 3 0), .go (.tile 2), .go (.tile 3), .go (.tile 3), .go (.tile 3),
   .go (.tile 3), .go (.tile 3), .go (.core 2 0), .go (.core 2 7), .go (.tile 2), .go (.tile 2), .go (.tile 2),
   .go (.tile 2), .go (.tile 2), .go (.core 2 0), .go (.core 2 0), .go (.core 2 0), .go (.core 2 0),
   .go (.core 2 0), .go (.core 2 0), .go (.core 2 0), .go (.core 2 1), .go (.core 2 1), .go (.core 2 1),
   .go (.core 2 1), .go (.core 2 1), .go (.core 2 1), .go (.core 2 2), .go (.core 2 2), .go (.core 2 2),
   .go (.core 2 2), .go (.core 2 2), .go (.core 2 3), .go (.core 2 3), .go (.core 2 3), .go (.core 2 3),
   .go (.core 2 4), .go (.core 2 4), .go (.core 2 4), .go (.core 2 5), .go (.core 2 5), .go (.core 2 7),
   .go (.core 2 7), .go (.core 2 7), .go (.core 2 7), .go (.core 2 7), .go (.core 2 7), .go (.core 2 7),
   .go (.tile 2), .go (.tile 3), .go (.tile 3), .go (.core 3 0), .go (.core 3 0), .go (.core 3 0), .go (.core 3 3),
   .go (.core 3 6), .go (.tile 2), .go (.core 2 1), .go (.core 2 1), .go (.core 2 1), .go (.core 2 1),
   .go (.core 2 2), .go (.core 2 2), .go (.core 2 2), .go (.core 2 2), .go (.core 2 2), .go (.core 2 3),
   .go (.core 2 3), .go (.core 2 3), .go (.core 2 3), .go (.core 2 3), .go (.core 2 3), .go (.core 2 4),
   .go (.core 2 4), .go (.core 2 4), .go (.core 2 4), .go (.core 2 4), .go (.core 2 4), .go (.core 2 4),
   .go (.core 2 5), .go (.core 2 5), .go (.core 2 5), .go (.core 2 5), .go (.core 2 5), .go (.core 2 5),
   .go (.core 2 5), .go (.core 2 5), .go (.core 2 6), .go (.core 2 6), .go (.core 2 6), .go (.core 2 6),
   .go (.core 2 6), .go (.core 2 6), .go (.core 2 6), .go (.core 2 6), .go (.core 2 6), .go (.tile 2),
   .go (.tile 2), .go (.tile 2), .go (.tile 2), .go (.tile 2), .go (.tile 2), .go (.tile 3), .go (.tile 3),
   .go (.tile 3), .go (.tile 3), .go (.tile 3), .go (.tile 3), .go (.core 3 1), .go (.core 3 1), .go (.core 3 1),
   .go (.core 3 1), .go (.core 3 1), .go (.core 3 1), .go (.core 3 2), .go (.core 3 2), .go (.core 3 2),
   .go (.core 3 2), .go (.core 3 2), .go (.core 3 2), .go (.core 3 2), .go (.core 3 2), .go (.core 3 3),
   .go (.core 3 3), .go (.core 3 3), .go (.core 3 3), .go (.core 3 3), .go (.core 3 3), .go (.core 3 3),
   .go (.core 3 4), .go (.core 3 4), .go (.core 3 4), .go (.core 3 4), .go (.core 3 4), .go (.core 3 4),
   .go (.core 3 4), .go (.core 3 4), .go (.core 3 5), .go (.core 3 5), .go (.core 3 5), .go (.core 3 5),
   .go (.core 3 5), .go (.core 3 5), .go (.core 3 5), .go (.core 3 5), .go (.core 3 5), .go (.core 3 5),
   .go (.core 3 6), .go (.core 3 6), .go (.core 3 6), .go (.core 3 6), .go (.core 3 6), .go (.core 3 7),
   .go (.core 3 7), .go (.core 3 7), .go (.tile 2), .ask 3 .tile, .ask 3 (.core 7), .ask 3 (.core 6),
   .go (.core 3 2), .resume 3 (.core 7), .go (.core 3 7), .resume 3 .tile, .ask 3 (.core 7), .ask 3 .tile,
   .go (.core 3 2), .go (.tile 4), .go (.core 4 0), .ask 4 (.core 0)]

end Ramwich.Spec
