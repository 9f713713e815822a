import Verif.Cfg.Model
import Verif.Cfg.Spec
/-! # What the host sees of a controller's properties -/
namespace Verif.Cfg

/-- What a controller with these properties reports. -/
def Props.view (p : Props) : View where
  ll n := p.leFeatures.testBit n
  lmp page n := (match page with | 0 => p.page0 | 1 => p.page1 | 2 => p.page2 | _ => 0).testBit n
  command i := (p.commands.getD (i / 10) 0).testBit (i % 10)
  initiator := p.roles.testBit 0
  br := p.br
  le := p.le

/-- The requirements that are not coded as they are written. -/
def wrong : List Name := [.c 10, .c 12, .c 13, .c 37, .c 50, .c 123, .c 133, .c 135, .c 136, .c 148, .c 152, .c 153, .c 154]

end Verif.Cfg
