import Verif.Baseline.Props
import Verif.Slices.Props
import Verif.Hdf5.Props
import Verif.Pol.Props
import Verif.BltAxis.OrderProps
import Verif.BltAxis.RectProps
import Verif.Blt.Props
import Verif.AntPair.Props
import Verif.Conj.Props
import Verif.GetData.Props
import Verif.Cache.Props
import Verif.Cache.Read
import Verif.PhaseCat.ConsProps
import Verif.History.Props
import Verif.Collapse.Props
import Verif.FreqSort.Reorder
import Verif.TimeSel.Props
import Verif.Select.Examples
import Verif.Flag.Examples
import Verif.Redund.Examples
import Verif.Redund.Inflate
import Verif.Add.Examples
import Verif.Concat.Examples
import Verif.Resample.Examples
import Verif.FreqAvg.Examples
import Verif.FlexPol.Examples
import Verif.Calib.Examples
import Verif.Coord.Examples
import Verif.Coord.Range
import Verif.CalAdd.Examples
import Verif.Phasing.UvwExamples
import Verif.Phase.Examples
import Verif.Sky.Examples
import Verif.Eq.Examples
import Verif.CalSort.Examples
import Verif.CalSort.Gain
import Verif.FlexJones.Examples
import Verif.Beam.Model
import Verif.Beam.Spec
import Verif.Beam.Select
import Verif.Beam.SelectProps
import Verif.Beam.Add
import Verif.Beam.AddProps
import Verif.Beam.AddMore
import Verif.Beam.Examples
import Verif.Eq.Unlike
import Verif.CalSort.Refused
import Verif.Beam.Power
import Verif.Beam.PowerProps
import Verif.Beam.PowerMore
import Verif.Beam.Norm
import Verif.Beam.PStokes
import Verif.Beam.PStokesProps
import Verif.Interp.Model
import Verif.Interp.Freq
import Verif.Interp.Sky
import Verif.Interp.Values
import Verif.Interp.Props
import Verif.Interp.NewObject
import Verif.Interp.Healpix
import Verif.Interp.Examples
import Verif.Fits.Model
import Verif.Fits.Lemmas
import Verif.Fits.Props
import Verif.Fits.Partial
import Verif.Fits.Params
import Verif.Fits.Keywords
import Verif.Fits.Examples
import Verif.CalFits.Model
import Verif.CalFits.Props
import Verif.CalFits.Refuse
import Verif.CalFits.Keywords
import Verif.CalFits.Examples
import Verif.BeamFits.Model
import Verif.BeamFits.Props
import Verif.BeamFits.Ranges
import Verif.SetData.Model
import Verif.SetData.Lemmas
import Verif.SetData.Props
import Verif.NewData.Model
import Verif.NewData.Props
import Verif.NewData.Labels
import Verif.NewData.Gaps
import Verif.NewData.Order
import Verif.AntStr.Model
import Verif.AntStr.Props
import Verif.AntStr.Choose
import Verif.AntStr.Pols
import Verif.TimeSel.Bound
import Verif.CalSelect.Model
import Verif.CalSelect.Cut
import Verif.CalSelect.Props
import Verif.CalSelect.Kept
import Verif.CalSelect.Whole
import Verif.CalSelect.Examples
import Verif.Compress.Times
import Verif.Compress.Model
import Verif.Compress.Props
import Verif.Compress.Mean
import Verif.Compress.Examples
import Verif.Uvh5.Model
import Verif.Uvh5.Spec
import Verif.Uvh5.Lemmas
import Verif.Uvh5.Props
import Verif.Uvh5.Examples
import Verif.FastMeta.Model
import Verif.FastMeta.Spec
import Verif.FastMeta.Lemmas
import Verif.FastMeta.Props
import Verif.FastMeta.Examples
import Verif.Norm.Model
import Verif.Norm.Spec
import Verif.Norm.Lemmas
import Verif.Norm.Props
import Verif.Norm.Examples
import Verif.EqCoeff.Model
import Verif.EqCoeff.Props
import Verif.EqCoeff.Examples
import Verif.SumVis.Model
import Verif.SumVis.Props
import Verif.SumVis.Examples
import Verif.Check.Model
import Verif.Check.Spec
import Verif.Check.Props
import Verif.Check.Examples
import Verif.H5Head.Examples
import Verif.KnownTel.Examples
import Verif.FlagSel.Spec
import Verif.FlagSel.Model
import Verif.FlagSel.Props
import Verif.FlagSel.Whole
import Verif.FlagSel.Kept
import Verif.FlagSel.Examples
import Verif.FlagMet.Model
import Verif.FlagMet.Spec
import Verif.FlagMet.Props
import Verif.FlagMet.Comb
import Verif.FlagMet.Whole
import Verif.FlagMet.Examples
import Verif.AntLike.Model
import Verif.AntLike.Props
import Verif.AntLike.Examples
import Verif.ReadSel.Model
import Verif.ReadSel.Spec
import Verif.ReadSel.Props
import Verif.ReadSel.Many
import Verif.ReadSel.Examples
import Verif.MirSel.Model
import Verif.MirSel.Spec
import Verif.MirSel.Props
import Verif.MirSel.Sel
import Verif.MirSel.More
import Verif.MirSel.Examples
import Verif.MsVis.Model
import Verif.MsVis.Spec
import Verif.MsVis.Props
import Verif.MsVis.Tables
import Verif.MsVis.One
import Verif.MsVis.Many
import Verif.MsVis.Several
import Verif.MsVis.Findings
import Verif.MsVis.Examples
import Verif.MsCat.Model
import Verif.MsCat.Props
import Verif.MsCat.Back
import Verif.MsCat.Examples
import Verif.MsAnt.Model
import Verif.MsAnt.Props
import Verif.MsAnt.Examples
import Verif.Scan.Model
import Verif.Scan.Props
import Verif.Scan.Examples
import Verif.Mwa.Model
import Verif.Mwa.Map
import Verif.Mwa.ChanModel
import Verif.Mwa.Chan
import Verif.Mwa.Flags
import Verif.Mwa.CorrModel
import Verif.Mwa.Corr
import Verif.Mwa.Examples
import Verif.Miriad.SelModel
import Verif.Miriad.Sel
import Verif.Miriad.RowModel
import Verif.Miriad.Row
import Verif.Miriad.HeadModel
import Verif.Miriad.Head
import Verif.Miriad.Examples
import Verif.FlagIo.Model
import Verif.FlagIo.Props
import Verif.FlagIo.New
import Verif.FlagIo.Examples
import Verif.MirData.Model
import Verif.MirData.Conv
import Verif.MirData.Rechunk
import Verif.MirData.Tsys
import Verif.MirData.Load
import Verif.MirData.Examples
import Verif.MirPack.Model
import Verif.MirPack.Group
import Verif.MirPack.Plan
import Verif.MirPack.File
import Verif.MirPack.Examples
import Verif.Cst.Model
import Verif.Cst.Name
import Verif.Cst.Head
import Verif.Cst.Grid
import Verif.Cst.File
import Verif.Cst.Many
import Verif.Cst.Examples
import Verif.MwaBeam.Model
import Verif.MwaBeam.Field
import Verif.MwaBeam.File
import Verif.MwaBeam.Read
import Verif.MwaBeam.Use
import Verif.MwaBeam.Examples
import Verif.MirShift.Model
import Verif.MirShift.Whole
import Verif.MirShift.Kernel
import Verif.MirShift.Interp
import Verif.MirShift.Doppler
import Verif.MirShift.Examples
import Verif.Cst.Regular
import Verif.Compass.Model
import Verif.Compass.Dict
import Verif.Compass.Cal
import Verif.Compass.Examples
import Verif.MsCal.Model
import Verif.MsCal.Fill
import Verif.MsCal.Round
import Verif.MsCal.Props
import Verif.MsCal.Near
import Verif.MsCal.Examples
import Verif.Fhd.Model
import Verif.Fhd.Props
import Verif.Fhd.Examples
import Verif.CalConcat.Model
import Verif.CalConcat.Props
import Verif.CalConcat.Examples
import Verif.CalGet.Model
import Verif.CalGet.Props
import Verif.CalGet.Examples
import Verif.CalH5.Model
import Verif.CalH5.Props
import Verif.CalH5.Examples
import Verif.CalHead.Model
import Verif.CalHead.Spec
import Verif.CalHead.Props
import Verif.CalHead.Examples
import Verif.NewCal.Model
import Verif.NewCal.Spec
import Verif.NewCal.Props
import Verif.NewCal.Vis
import Verif.NewCal.Examples
import Verif.NewBeam.Model
import Verif.NewBeam.Spec
import Verif.NewBeam.Props
import Verif.NewBeam.Auto
import Verif.NewBeam.Examples
import Verif.Lst.Model
import Verif.Lst.Props
import Verif.Lst.Examples
import Verif.MirVis.Model
import Verif.MirVis.Lemmas
import Verif.MirVis.Props
import Verif.MirVis.Counter
import Verif.MirVis.Examples
import Verif.MirAdd.Model
import Verif.MirAdd.Props
import Verif.MirAdd.Counter
import Verif.MirAdd.Examples
import Verif.MirCat.Model
import Verif.MirCat.Props
import Verif.MirCat.Counter
import Verif.MirCat.Examples
import Verif.MirGet.Model
import Verif.MirGet.Props
import Verif.MirGet.Examples
import Verif.MsHist.Model
import Verif.MsHist.Props
import Verif.MsHist.Examples
import Verif.Track.Model
import Verif.Track.Props
import Verif.Track.Examples
import Verif.AppSet.Model
import Verif.AppSet.Props
import Verif.AppSet.Examples
import Verif.Resample.Auto
import Verif.Resample.AutoProps
import Verif.Resample.AutoExamples
import Verif.MirLoc.Model
import Verif.MirLoc.Props
import Verif.MirLoc.Examples
import Verif.FileNames.Model
import Verif.FileNames.Props
import Verif.FileNames.Examples
import Verif.MirMask.Model
import Verif.MirMask.Props
import Verif.MirMask.Examples
import Verif.MirFix.Model
import Verif.MirFix.Props
import Verif.MirFix.Examples
import Verif.MirUvw.Model
import Verif.MirUvw.Props
import Verif.MirUvw.Examples
import Verif.MirOnline.Model
import Verif.MirOnline.Props
import Verif.MirOnline.Examples
import Verif.FhdNames.Model
import Verif.FhdNames.Props
import Verif.FhdNames.Examples
import Verif.MirCipher.Model
import Verif.MirCipher.Props
import Verif.MirCipher.Examples
import Verif.FhdHist.Model
import Verif.FhdHist.Props
import Verif.FhdHist.Examples
import Verif.MirCodes.Model
import Verif.MirCodes.Props
import Verif.MirCodes.Examples
