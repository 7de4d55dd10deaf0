import Verif.ByteStream.Props
import Verif.Cookies.Props
import Verif.CookieStore.Props
import Verif.Storage.Props
import Verif.History.Props
import Verif.Hub.Props
import Verif.RefTracker.Props
import Verif.Decision.Props
import Verif.Config.Props
import Verif.Dom.Props
import Verif.Dom.QueryProps
import Verif.Select.Props
import Verif.Cascade.Props2
import Verif.Color.Props
import Verif.CharRef.Props2
import Verif.Table.Props3
import Verif.Layers.Props2
import Verif.TileBudget.Props2
import Verif.Composite.Props
import Verif.Places.Props
import Verif.TabNav.Props2
import Verif.Scroll.Props2
import Verif.HtmlTok.Props2
import Verif.HtmlTok.Raw
import Verif.CssTok.Props2
import Verif.CssTok.Trip2
import Verif.CssTok.Buffer
import Verif.Grammar.Model
import Verif.Grammar.Spec
import Verif.Grammar.Lemmas
import Verif.Grammar.Mono
import Verif.Grammar.Ends
import Verif.Grammar.Sound
import Verif.Grammar.Complete
import Verif.Grammar.Groups
import Verif.Grammar.PropsEnds
import Verif.Grammar.PropsSound
import Verif.Grammar.PropsLongest
import Verif.Grammar.PropsTypes
import Verif.TreeBuild.Props
import Verif.TreeBuild.Props2
import Verif.TreeBuild.Props5
import Verif.CssParse.Props
import Verif.CssParse.Props2
import Verif.Zones.Props
import Verif.Zones.Props2
import Verif.Zones.Props3
import Verif.Style.Props
import Verif.Style.InlineProps
import Verif.RenderTree.Props
import Verif.Interact.FocusProps
import Verif.Pages.Props
import Verif.Pages.Resolve
import Verif.Tiler.Props
import Verif.Console.Props
import Verif.Media.Props
import Verif.Quirks.Props
import Verif.Timing.Props
import Verif.EventLoop.Props
import Verif.Gradient.Props
import Verif.Gradient.LineProps
import Verif.BakedOrder.Props
import Verif.Textures.Props
import Verif.BgLayers.Props
import Verif.CssMath.Props
