import Verif.Props.FeatureDistance
import Verif.Props.FeatureStatistics
import Verif.Props.Camera
import Verif.Props.FeatureCoordinates
import Verif.Props.FeatureManager
import Verif.Props.Pyramid
import Verif.Props.Patch
import Verif.Props.PatchScore
import Verif.Props.Alignment
import Verif.Props.ImgScan
import Verif.Props.ImgPost
import Verif.Props.MultiCamera
import Verif.Props.Outputs
import Verif.Props.FeatureOutput
import Verif.Props.Extrinsics
import Verif.Props.PoseUpdate
import Verif.Props.ImuPrediction
import Verif.Props.ImuJacobian
import Verif.Props.FeatureCovariance
import Verif.Props.MedianDepth
import Verif.Props.Node
import Verif.Props.NodeImages
import Verif.Props.NodePose
import Verif.Props.Message
import Verif.Props.Rays
import Verif.Props.OutputCov
import Verif.Props.NoFeedback
import Verif.Props.FilterCov
import Verif.Props.FilterLive
import Verif.Props.ImgInnov
import Verif.Props.DirectUpdate
import Verif.Props.Normalised
import Verif.Props.NewFeature
import Verif.Props.Calibration
import Verif.Props.Tracker
import Verif.Props.Config
import Verif.Props.BagLoader
import Verif.Props.ImgNoise
import Verif.Props.ImgPixel
import Verif.Props.Publish
import Verif.Props.Draw
import Verif.Props.Scene3D
import Verif.Props.RovioScene
import Verif.Props.Reset
import Verif.Props.ImgFull
import Verif.Props.Gauge
import Verif.Props.TimeShift
import Verif.Props.Unseen
import Verif.Props.NewOrder
import Verif.Props.Brightness
import Verif.Props.ImgSees
import Verif.Props.PixelCov
import Verif.Props.ExtFrame
import Verif.Props.ImgMoves
import Verif.Props.ImuFrame
import Verif.Props.Unmoved
import Verif.Props.Assembled
import Verif.Props.Predicted
import Verif.Props.Mounting
import Verif.Props.OwnFrame
import Verif.Props.Slots
import Verif.Props.ImgIekf
import Verif.Props.ImgIekfLife
import Verif.Props.Ypr
import Verif.Props.AlignExtra
import Verif.Props.Fragment
import Verif.Props.Influence
import Verif.Props.AtRest
import Verif.Props.AtRestImg
import Verif.Props.AtRestLife
import Verif.Props.AtRestIter
import Verif.Props.Overlay
import Verif.Props.SharedImages
import Verif.Props.SlotMemory
import Verif.Props.ImgPose
import Verif.Props.PoseStart
import Verif.Props.LifeTotal
import Verif.Props.LifeLive
import Verif.Props.Outline
import Verif.Props.LifeZero
import Verif.Props.Annot
import Verif.Props.LifeFeature
