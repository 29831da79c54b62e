import Verif.Model.Dec.Arw
import Verif.Model.Dec.Cr2
import Verif.Model.Dec.Crw
import Verif.Model.Dec.Dcr
import Verif.Model.Dec.Dng
import Verif.Model.Dec.Iiq
import Verif.Model.Dec.Mos
import Verif.Model.Dec.Nef
import Verif.Model.Dec.Orf
import Verif.Model.Dec.Pef
import Verif.Model.Dec.Raf
import Verif.Model.Dec.Rw2
import Verif.Model.Dec.Srw
/-!
# Model of the dispatch in `src/decoders/mod.rs` and of the entry point in `src/lib.rs`
-/

namespace Model
open Rust

/-- What the code takes from the platform: the floating point functions (used by `nef.rs`) and `str::parse::<f32>` (used by
`mos.rs`). -/
structure Platform where
  libm : Libm
  parseF32 : Bytes → F32

/-- `Box<Decoder>`: one constructor for each decoder, with what the constructor of the decoder stores besides the buffer and the
loader. -/
inductive Decoder where
  | mrw (d : Mrw.Decoder)
  | crw (ciff : CiffIFD)
  | ari
  | x3f (f : X3f.File)
  | dng (tiff : TiffIFD)
  | cr2 (tiff : TiffIFD)
  | arw (tiff : TiffIFD)
  | mef (tiff : TiffIFD)
  | orf (tiff : TiffIFD)
  | srw (tiff : TiffIFD)
  | erf (tiff : TiffIFD)
  | kdc (tiff : TiffIFD)
  | dcs (tiff : TiffIFD)
  | dcr (tiff : TiffIFD)
  | rw2 (tiff : TiffIFD)
  | raf (tiff : TiffIFD)
  | pef (tiff : TiffIFD)
  | iiq (tiff : TiffIFD)
  | tfr (tiff : TiffIFD)
  | nef (tiff : TiffIFD)
  | nrw (tiff : TiffIFD)
  | mos (tiff : TiffIFD)
  | nkd (camera : Camera)

/-- The decoder for a maker (`mod.rs:367-391`). -/
def makeDecoder (make : Bytes) (tiff : TiffIFD) : M Decoder :=
  if make = b! "SONY" then .ok (.arw tiff)
  else if make = b! "Mamiya-OP Co.,Ltd." then .ok (.mef tiff)
  else if make = b! "OLYMPUS IMAGING CORP." then .ok (.orf tiff)
  else if make = b! "OLYMPUS CORPORATION" then .ok (.orf tiff)
  else if make = b! "OLYMPUS OPTICAL CO.,LTD" then .ok (.orf tiff)
  else if make = b! "SAMSUNG" then .ok (.srw tiff)
  else if make = b! "SEIKO EPSON CORP." then .ok (.erf tiff)
  else if make = b! "EASTMAN KODAK COMPANY" then .ok (.kdc tiff)
  else if make = b! "KODAK" then .ok (.dcs tiff)
  else if make = b! "Kodak" then .ok (.dcr tiff)
  else if make = b! "Panasonic" then .ok (.rw2 tiff)
  else if make = b! "LEICA" then .ok (.rw2 tiff)
  else if make = b! "FUJIFILM" then .ok (.raf tiff)
  else if make = b! "PENTAX Corporation" then .ok (.pef tiff)
  else if make = b! "RICOH IMAGING COMPANY, LTD." then .ok (.pef tiff)
  else if make = b! "PENTAX" then .ok (.pef tiff)
  else if make = b! "Leaf" then .ok (.iiq tiff)
  else if make = b! "Hasselblad" then .ok (.tfr tiff)
  else if make = b! "NIKON CORPORATION" then .ok (.nef tiff)
  else if make = b! "NIKON" then .ok (.nrw tiff)
  else if make = b! "Canon" then .ok (.cr2 tiff)
  else if make = b! "Phase One A/S" then .ok (.iiq tiff)
  else fail "Couldn't find a decoder for make"

/-- Whether the model is the Kodak DCS560C (`mod.rs:358`). -/
def isDcs560 (tiff : TiffIFD) : M Bool :=
  if tiff.hasEntry Tag.Model then do
    let e ← tiff.fetchTag Tag.Model
    let s ← e.getStr
    .ok (decide (s = b! "DCS560C"))
  else .ok false

/-- The decision from the directory of a TIFF file (`mod.rs:353-397`); `none` is falling through to the end of the block. -/
def tiffDecoder (tiff : TiffIFD) : M (Option Decoder) :=
  if tiff.hasEntry Tag.DNGVersion then .ok (some (.dng tiff))
  else do
    let dcs560 ← isDcs560 tiff
    if dcs560 then .ok (some (.cr2 tiff))
    else if tiff.hasEntry Tag.Make then do
      let e ← tiff.fetchTag Tag.Make
      let s ← e.getStr
      let d ← makeDecoder s tiff
      .ok (some d)
    else if tiff.hasEntry Tag.Software then do
      let e ← tiff.fetchTag Tag.Software
      let s ← e.getStr
      .ok (if s = b! "Camera Library" then some (.mos tiff) else none)
    else .ok none

/-- `if let Ok(x) = r`: an error is dropped, a panic goes on. -/
def okOnly {α : Type} : M α → M (Option α)
  | .ok a => .ok (some a)
  | .error (.err _) => .ok none
  | .error e => .error e

/-- `if let Ok(tiff) = TiffIFD::new_file(buffer) { .. }` (`mod.rs:352-398`) -/
def parsedDecoder : Option TiffIFD → M (Option Decoder)
  | some tiff => tiffDecoder tiff
  | none => .ok none

namespace RawLoader

/-- The lookup by file size (`mod.rs:400-405`). -/
def nakedDecoder (s : RawLoader) (size : Nat) : M Decoder :=
  match Map.get s.naked size with
  | some cam => .ok (.nkd cam)
  | none => fail "Couldn't find a decoder for this file."

/-- `RawLoader::get_decoder` (`mod.rs:328-406`) -/
def getDecoder (s : RawLoader) (b : Build) (buf : Buffer) : M Decoder := do
  let mrw ← Mrw.isMrw buf.buf
  if mrw then do
    let d ← Mrw.new b buf.buf
    .ok (.mrw d)
  else do
    let ciff ← isCiff buf.buf
    if ciff then do
      let c ← CiffIFD.newFile b buf
      .ok (.crw c)
    else do
      let ari ← Ari.isAri buf.buf
      if ari then .ok .ari
      else do
        let x3f ← X3f.isX3f buf.buf
        if x3f then do
          let f ← X3f.new b buf
          .ok (.x3f f)
        else do
          let t ← okOnly (TiffIFD.newFile b buf.buf)
          let d ← parsedDecoder t
          match d with
          | some d => .ok d
          | none => s.nakedDecoder buf.size

end RawLoader

/-- `Decoder::image` (`mod.rs:67-69` and the `impl` of each format) -/
def Decoder.image (env : Platform) (b : Build) (buffer : Bytes) (loader : RawLoader) : Decoder → M RawImage
  | mrw d => Mrw.image b buffer d loader
  | crw c => Crw.image b buffer c loader
  | ari => Ari.image b buffer loader
  | x3f f => X3f.image b buffer f loader
  | dng t => Dng.image b buffer t loader
  | cr2 t => Cr2.image b buffer t loader
  | arw t => Arw.image b buffer t loader
  | mef t => Mef.image b buffer t loader
  | orf t => Orf.image b buffer t loader
  | srw t => Srw.image b buffer t loader
  | erf t => Erf.image b buffer t loader
  | kdc t => Kdc.image b buffer t loader
  | dcs t => Dcs.image b buffer t loader
  | dcr t => Dcr.image b buffer t loader
  | rw2 t => Rw2.image b buffer t loader
  | raf t => Raf.image b buffer t loader
  | pef t => Pef.image b buffer t loader
  | iiq t => Iiq.image b buffer t loader
  | tfr t => Tfr.image b buffer t loader
  | nef t => Nef.image env.libm b buffer t loader
  | nrw t => Nrw.image b buffer t loader
  | mos t => Mos.image b env.parseF32 buffer t loader
  | nkd c => Nkd.image b buffer c

namespace RawLoader

/-- `RawLoader::decode` (`mod.rs:432-436`) on the bytes a reader delivers; `Buffer::new` (`mod.rs:78-89`) turns a read error
into `Err`, see `decodeSafe`. -/
def decode (s : RawLoader) (env : Platform) (b : Build) (contents : Bytes) : M RawImage := do
  let buffer := Buffer.new contents
  let d ← s.getDecoder b buffer
  d.image env b buffer.buf s

/-- What opening and reading a path gives: the contents, or a message from the operating system. -/
abbrev FileResult := Except String Bytes

/-- `RawLoader::decode_safe` (`mod.rs:438-449`): `catch_unwind` turns a panic into an `Err`. -/
def decodeSafe (s : RawLoader) (env : Platform) (b : Build) (file : FileResult) : M RawImage :=
  match file with
  | .error e => fail e
  | .ok contents =>
    match s.decode env b contents with
    | .error .panic => fail "Caught a panic while decoding."
    | r => r

end RawLoader

/-- `rawloader::decode` (`lib.rs:108-110`). The loader is built on first use (`lib.rs:95-97`), outside `catch_unwind`, from the
database compiled into the library. -/
def rawloaderDecode (env : Platform) (b : Build) (database : Toml) (file : RawLoader.FileResult) : M RawImage := do
  let loader ← RawLoader.new database
  loader.decodeSafe env b file

end Model
