import Verif.Proof.Escape
import Verif.Model.Num
import Verif.Props.Strings
import Verif.Props.Numbers
import Verif.Props.Utf16
import Verif.Props.Protect
import Verif.Props.Compare
import Verif.Props.Svg
import Verif.Props.Html
import Verif.Proof.Flow
import Verif.Props.Errors
import Verif.Props.File
import Verif.Props.Outline
import Verif.Props.Content
import Verif.Props.Resources
import Verif.Props.Geometry
import Verif.Props.Settings
import Verif.Props.Colors
import Verif.Props.Fonts
import Verif.Props.Restore
import Verif.Props.Cells
import Verif.Props.Drawing
import Verif.Props.Text
import Verif.Props.Wrap
import Verif.Props.MultiCell
import Verif.Props.Write
import Verif.Props.Alpha
import Verif.Proof.Parts
import Verif.Spec.Catalog
import Verif.Props.Catalog
import Verif.Props.CatalogCases
import Verif.Props.Attach
import Verif.Props.AttachCases
import Verif.Props.CatalogProtected
import Verif.Spec.Alias
import Verif.Proof.Replace
import Verif.Proof.Apart
import Verif.Props.Alias
import Verif.Spec.Png
import Verif.Model.Png
import Verif.Proof.Png
import Verif.Props.Png
import Verif.Props.Grid
import Verif.Props.GridState
import Verif.Model.CidMap
import Verif.Spec.Widths
import Verif.Proof.CidMap
import Verif.Props.Widths
import Verif.Model.Translate
import Verif.Proof.Runes
import Verif.Spec.CodePage
import Verif.Props.Translate
import Verif.Spec.Ttf
import Verif.Model.Ttf
import Verif.Proof.Ttf
import Verif.Props.Ttf
import Verif.Props.Cmap
import Verif.Proof.Log
import Verif.Props.HeaderFooter
import Verif.Proof.Templates
import Verif.Proof.Order
import Verif.Props.Templates
import Verif.Spec.Image
import Verif.Proof.Images
import Verif.Props.Images
import Verif.Proof.Reorder
import Verif.Props.Reproducible
import Verif.Model.Gob
import Verif.Proof.Gob
import Verif.Props.Gob
import Verif.Props.Gradient
import Verif.Props.Links
import Verif.Props.Boxes
import Verif.Props.Justify
import Verif.Props.Attrs
import Verif.Props.Placement
import Verif.Props.Lines
import Verif.Props.Shapes
import Verif.Model.SvgWrite
import Verif.Props.SvgPage
import Verif.Model.TtfParse
import Verif.Props.TtfParse
