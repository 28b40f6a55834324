import Verif.Props.ParserBasic
import Verif.Props.ParserStream
import Verif.Props.ParserAccount
import Verif.Props.Util
import Verif.Props.ThermalFile
import Verif.Props.Graphics
import Verif.Props.Decoder
import Verif.Props.Upce
import Verif.Props.Text
import Verif.Props.Geometry
import Verif.Props.Settings
import Verif.Props.Stored
import Verif.Props.Layout
import Verif.Props.Jobs
import Verif.Props.Drawing
import Verif.Props.Canvas
import Verif.Props.ImageOutput
import Verif.Props.Style
import Verif.Props.PrintedText
import Verif.Props.Html
import Verif.Props.HtmlDocument
import Verif.Props.HtmlText
import Verif.Props.Css
import Verif.Props.Total
import Verif.Props.Picture
import Verif.Props.ImageTotal
import Verif.Props.StandardTotal
import Verif.Props.HtmlTotal
import Verif.Props.Typeset
import Verif.Props.Barcode
import Verif.Props.Qr
import Verif.Props.Printer
import Verif.Props.Sheets
import Verif.Props.Web
import Verif.Props.Dots
import Verif.Props.PageMode
import Verif.Props.F32
import Verif.Props.Again
import Verif.Props.WebAgain
import Verif.Props.Debug
import Verif.Props.Reports
import Verif.Props.ColumnLayers
import Verif.Props.Protocol
import Verif.Props.Told
import Verif.Props.Characters
import Verif.Props.Log
import Verif.Props.Receipt
import Verif.Props.Utf8
import Verif.Props.White
import Verif.Props.WebReceipt
