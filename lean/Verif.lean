import Verif.Props.Grid
import Verif.Props.KTensor
import Verif.Props.Surface
import Verif.Props.Assign
import Verif.Props.Strata
import Verif.Props.Units
import Verif.Props.Trough
import Verif.Props.Bulb
import Verif.Props.Place
import Verif.Props.Sheet
import Verif.Props.Channel
import Verif.Props.Ferguson
import Verif.Props.Layers
import Verif.Props.Choose
import Verif.Props.Masks
import Verif.Props.Hydraulics
import Verif.Props.Specsim
import Verif.Props.Covariance
import Verif.Spec.Requested
import Verif.Props.Requested
import Verif.Spec.Requested3
import Verif.Props.Requested3
import Verif.Props.ParseList
import Verif.Props.OptionShapes
import Verif.Props.Section
import Verif.Model.OptionTables
import Verif.Props.Contact
import Verif.Props.Validation
import Verif.Props.FaciesNames
import Verif.Props.FaciesNumbers
import Verif.Props.StrataOptions
import Verif.Props.Elements
import Verif.Props.Lookup
import Verif.Props.OldFormat
import Verif.Props.Dirs
import Verif.Props.Realisations
import Verif.Props.Output
import Verif.Props.Plotting
import Verif.Props.Setup
import Verif.Spec.Finish
import Verif.Lemmas.Finish
import Verif.Model.Generate
import Verif.Model.Objects
import Verif.Spec.Generate
import Verif.Lemmas.Generate
import Verif.Props.Finish
import Verif.Spec.Stack
import Verif.Spec.Written
import Verif.Lemmas.Stack
import Verif.Lemmas.Origin
import Verif.Lemmas.Written
import Verif.Props.Written
import Verif.Spec.Inside
import Verif.Lemmas.Inside
import Verif.Props.Inside
import Verif.Spec.Placing
import Verif.Lemmas.Placing
import Verif.Props.Placing
import Verif.Spec.Site
import Verif.Lemmas.Run
import Verif.Lemmas.Site
import Verif.Props.Site
import Verif.Model.Parameters
import Verif.Spec.Parameters
import Verif.Lemmas.Parameters
import Verif.Props.Parameters
import Verif.Spec.Idle
import Verif.Lemmas.Idle
import Verif.Props.Idle
import Verif.Model.Complete
import Verif.Spec.Complete
import Verif.Lemmas.Complete
import Verif.Props.Complete
import Verif.Model.Main
import Verif.Props.Main
import Verif.Spec.Translate
import Verif.Lemmas.Translate
import Verif.Props.Translate
import Verif.Model.Cached
import Verif.Lemmas.Cached
import Verif.Lemmas.Skip
import Verif.Lemmas.SkipGen
import Verif.Props.Cached
import Verif.Spec.Defaults
import Verif.Props.Defaults
import Verif.Model.Files
import Verif.Spec.Files
import Verif.Lemmas.Files
import Verif.Props.Files
import Verif.Spec.Filled
import Verif.Lemmas.Filled
import Verif.Props.Filled
import Verif.Props.Cake
import Verif.Spec.Exported
import Verif.Props.Exported
import Verif.Props.ManyStrata
import Verif.Props.Order
import Verif.Spec.Mirrored
import Verif.Props.Mirrored
import Verif.Spec.Moved
import Verif.Lemmas.Near
import Verif.Lemmas.Moved
import Verif.Props.Moved
import Verif.Spec.Renumber
import Verif.Lemmas.Renumber
import Verif.Lemmas.RenumberObjects
import Verif.Lemmas.RenumberIni
import Verif.Props.Renumber
import Verif.Props.RenumberExample
import Verif.Spec.Scaled
import Verif.Lemmas.Scaled
import Verif.Lemmas.ScaledObjects
import Verif.Lemmas.ScaledRead
import Verif.Props.Scaled
import Verif.Props.Conductivity
import Verif.Spec.Resolution
import Verif.Lemmas.Hanging
import Verif.Lemmas.Resolution
import Verif.Props.Hanging
import Verif.Props.Resolution
import Verif.Props.Trench
import Verif.Props.Reported
import Verif.Spec.Surely
import Verif.Lemmas.Surely
import Verif.Props.Surely
import Verif.Props.Frequency
import Verif.Props.Almost
import Verif.Model.IniText
import Verif.Spec.IniText
import Verif.Lemmas.IniText
import Verif.Lemmas.IniRead
import Verif.Lemmas.IniWrite
import Verif.Props.IniText
import Verif.Spec.IniValues
import Verif.Props.IniMore
import Verif.Props.IniAgain
import Verif.Spec.Endless
import Verif.Lemmas.Stay
import Verif.Props.Endless
import Verif.Spec.Width
import Verif.Lemmas.Width
import Verif.Lemmas.WidthIni
import Verif.Props.Width
import Verif.Spec.Density
import Verif.Props.Density
import Verif.Spec.Own
import Verif.Props.Own
import Verif.Spec.Share
import Verif.Lemmas.Share
import Verif.Props.Share
import Verif.Spec.Frame
import Verif.Lemmas.Frame
import Verif.Lemmas.FrameIni
import Verif.Props.Frame
import Verif.Props.MoreRuns
import Verif.Props.Anew
import Verif.Props.Layout
import Verif.Props.MoreFormats
import Verif.Props.Relocated
import Verif.Props.Renamed
import Verif.Props.Beside
