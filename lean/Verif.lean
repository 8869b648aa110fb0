import Verif.Props.Bytes
import Verif.Props.Wire
import Verif.Props.Esv
import Verif.Props.Request
import Verif.Props.Store
import Verif.Props.PropertyMap
import Verif.Props.Std
import Verif.Props.Frame
import Verif.Props.Node
import Verif.Props.Controller
import Verif.Props.Post
import Verif.Props.Tid
import Verif.Props.EndToEnd
import Verif.Props.Running
import Verif.Props.Threads
import Verif.Spec.Search
import Verif.Lemmas.Search
import Verif.Props.Search
import Verif.Model.Linked
import Verif.Spec.Linked
import Verif.Lemmas.Linked
import Verif.Props.Linked
import Verif.Model.Observers
import Verif.Props.Observers
import Verif.Lemmas.Callback
import Verif.Props.Callback
import Verif.Model.Iterate
import Verif.Lemmas.Iterate
import Verif.Props.Iterate
import Verif.Model.Listeners
import Verif.Props.Listeners
import Verif.Model.Shared
import Verif.Spec.Shared
import Verif.Lemmas.Shared
import Verif.Props.Shared
import Verif.Lemmas.Response
import Verif.Props.Response
import Verif.Model.Light
import Verif.Lemmas.Light
import Verif.Props.Light
import Verif.Model.Tools
import Verif.Spec.Tools
import Verif.Lemmas.Tools
import Verif.Props.Tools
import Verif.Spec.Session
import Verif.Lemmas.Exchange
import Verif.Lemmas.Session
import Verif.Props.Session
import Verif.Spec.Traffic
import Verif.Lemmas.Traffic
import Verif.Props.Traffic
import Verif.Props.Retry
import Verif.Model.NamesRaw
import Verif.Model.StdNames
import Verif.Model.Names
import Verif.Spec.Names
import Verif.Lemmas.Names
import Verif.Props.Names
import Verif.Model.Verbose
import Verif.Spec.Verbose
import Verif.Lemmas.Verbose
import Verif.Props.Verbose
import Verif.Lemmas.Repeat
import Verif.Props.Repeat
import Verif.Props.Isolation
import Verif.Spec.Storm
import Verif.Lemmas.Storm
import Verif.Props.Storm
import Verif.Spec.Several
import Verif.Lemmas.Several
import Verif.Props.Several
import Verif.Props.DocDevice
import Verif.Lemmas.Identity
import Verif.Props.Identity
import Verif.Props.Announce
import Verif.Model.Closing
import Verif.Lemmas.Closing
import Verif.Props.Closing
import Verif.Model.Adding
import Verif.Spec.Adding
import Verif.Lemmas.Adding
import Verif.Props.Adding
import Verif.Props.Shape
import Verif.Props.Restart
import Verif.Props.Itself
import Verif.Model.Finding
import Verif.Spec.Finding
import Verif.Lemmas.Finding
import Verif.Props.Finding
import Verif.Props.Transmit
import Verif.Model.Aliasing
import Verif.Spec.Aliasing
import Verif.Lemmas.Aliasing
import Verif.Props.Aliasing
import Verif.Spec.Air
import Verif.Lemmas.Air
import Verif.Props.Air
import Verif.Props.Numbers
import Verif.Lemmas.Bounded
import Verif.Props.Bounded
import Verif.Spec.Asked
import Verif.Lemmas.Asked
import Verif.Props.Asked
import Verif.Model.Mapping
import Verif.Lemmas.Mapping
import Verif.Props.Mapping
import Verif.Spec.Sending
import Verif.Lemmas.Sending
import Verif.Props.Sending
import Verif.Model.Calling
import Verif.Spec.Calling
import Verif.Lemmas.Calling
import Verif.Props.Calling
import Verif.Model.Hearing
import Verif.Spec.Hearing
import Verif.Lemmas.Hearing
import Verif.Props.Hearing
import Verif.Model.Watching
import Verif.Spec.Watching
import Verif.Lemmas.Watching
import Verif.Props.Watching
import Verif.Spec.Secrets
import Verif.Lemmas.Secrets
import Verif.Props.Secrets
import Verif.Spec.Impartial
import Verif.Lemmas.Impartial
import Verif.Props.Impartial
import Verif.Lemmas.Length
import Verif.Props.Length
import Verif.Model.Pool
import Verif.Spec.Pool
import Verif.Lemmas.Pool
import Verif.Props.Pool
import Verif.Check.Suite
import Verif.Model.Lifetime
import Verif.Spec.Lifetime
import Verif.Lemmas.Lifetime
import Verif.Props.Lifetime
import Verif.Spec.Device
import Verif.Lemmas.Device
import Verif.Props.Device
import Verif.Spec.Picture
import Verif.Lemmas.Picture
import Verif.Props.Picture
import Verif.Spec.Truth
import Verif.Lemmas.Truth
import Verif.Props.Truth
import Verif.Spec.Whole
import Verif.Lemmas.Whole
import Verif.Props.Whole
import Verif.Spec.Closed
import Verif.Lemmas.Closed
import Verif.Props.Closed
import Verif.Spec.Polite
import Verif.Lemmas.Polite
import Verif.Props.Polite
import Verif.Spec.Once
import Verif.Lemmas.Once
import Verif.Props.Once
import Verif.Spec.Settled
import Verif.Lemmas.Settled
import Verif.Props.Settled
import Verif.Spec.Done
import Verif.Lemmas.Done
import Verif.Props.Done
import Verif.Spec.Kept
import Verif.Lemmas.Kept
import Verif.Props.Kept
import Verif.Spec.Step
import Verif.Lemmas.Step
import Verif.Props.Step
import Verif.Lemmas.Turn
import Verif.Props.Turn
import Verif.Spec.Atomic
import Verif.Lemmas.Atomic
import Verif.Props.Atomic
import Verif.Spec.Undisturbed
import Verif.Props.Undisturbed
import Verif.Model.Crowd
import Verif.Spec.Crowd
import Verif.Lemmas.Crowd
import Verif.Props.Crowd
import Verif.Spec.Busy
import Verif.Lemmas.Busy
import Verif.Props.Busy
import Verif.Props.Overtaken
import Verif.Spec.Nowait
import Verif.Lemmas.Nowait
import Verif.Props.Nowait
import Verif.Spec.Timely
import Verif.Lemmas.Timely
import Verif.Props.Timely
