import Verif.Proofs.RawUcd0
import Verif.Proofs.RawUcd1
import Verif.Proofs.RawUcd2
import Verif.Proofs.RawUcd3
import Verif.Proofs.RawUcd4
import Verif.Proofs.RawUcd5
import Verif.Data.RawUcd
import Verif.Data.Ucd
import Verif.Proofs.Raw
import Verif.Spec.Ucd
set_option maxRecDepth 100000
set_option Elab.async false
/-! GENERATED by tools/gen_rawchk.py. The recorded octets of UnicodeData.txt have the content of Data/Ucd.lean:
every block of 256 lines is checked by kernel evaluation. -/
namespace U5e.Data

/-- UnicodeData.txt is a well-formed file with the content of Data/Ucd.lean. -/
theorem unicodeData_lines : LinesOk unicodeDataRaw ucdRows 0 1114110 := by
  unfold unicodeDataRaw ucdRows
  exact ((chkLines_spec lines0).append ((chkLines_spec lines1).append ((chkLines_spec lines2).append ((chkLines_spec lines3).append ((chkLines_spec lines4).append ((chkLines_spec lines5).append ((chkLines_spec lines6).append ((chkLines_spec lines7).append ((chkLines_spec lines8).append ((chkLines_spec lines9).append ((chkLines_spec lines10).append ((chkLines_spec lines11).append ((chkLines_spec lines12).append ((chkLines_spec lines13).append ((chkLines_spec lines14).append ((chkLines_spec lines15).append ((chkLines_spec lines16).append ((chkLines_spec lines17).append ((chkLines_spec lines18).append ((chkLines_spec lines19).append ((chkLines_spec lines20).append ((chkLines_spec lines21).append ((chkLines_spec lines22).append ((chkLines_spec lines23).append ((chkLines_spec lines24).append ((chkLines_spec lines25).append ((chkLines_spec lines26).append ((chkLines_spec lines27).append ((chkLines_spec lines28).append ((chkLines_spec lines29).append ((chkLines_spec lines30).append ((chkLines_spec lines31).append ((chkLines_spec lines32).append ((chkLines_spec lines33).append ((chkLines_spec lines34).append ((chkLines_spec lines35).append ((chkLines_spec lines36).append ((chkLines_spec lines37).append ((chkLines_spec lines38).append ((chkLines_spec lines39).append ((chkLines_spec lines40).append ((chkLines_spec lines41).append ((chkLines_spec lines42).append ((chkLines_spec lines43).append ((chkLines_spec lines44).append ((chkLines_spec lines45).append ((chkLines_spec lines46).append ((chkLines_spec lines47).append ((chkLines_spec lines48).append ((chkLines_spec lines49).append ((chkLines_spec lines50).append ((chkLines_spec lines51).append ((chkLines_spec lines52).append ((chkLines_spec lines53).append ((chkLines_spec lines54).append ((chkLines_spec lines55).append ((chkLines_spec lines56).append ((chkLines_spec lines57).append ((chkLines_spec lines58).append ((chkLines_spec lines59).append ((chkLines_spec lines60).append ((chkLines_spec lines61).append ((chkLines_spec lines62).append ((chkLines_spec lines63).append ((chkLines_spec lines64).append ((chkLines_spec lines65).append ((chkLines_spec lines66).append ((chkLines_spec lines67).append ((chkLines_spec lines68).append ((chkLines_spec lines69).append ((chkLines_spec lines70).append ((chkLines_spec lines71).append ((chkLines_spec lines72).append ((chkLines_spec lines73).append ((chkLines_spec lines74).append ((chkLines_spec lines75).append ((chkLines_spec lines76).append ((chkLines_spec lines77).append ((chkLines_spec lines78).append ((chkLines_spec lines79).append ((chkLines_spec lines80).append ((chkLines_spec lines81).append ((chkLines_spec lines82).append ((chkLines_spec lines83).append ((chkLines_spec lines84).append ((chkLines_spec lines85).append ((chkLines_spec lines86).append ((chkLines_spec lines87).append ((chkLines_spec lines88).append ((chkLines_spec lines89).append ((chkLines_spec lines90).append ((chkLines_spec lines91).append ((chkLines_spec lines92).append ((chkLines_spec lines93).append ((chkLines_spec lines94).append ((chkLines_spec lines95).append ((chkLines_spec lines96).append ((chkLines_spec lines97).append ((chkLines_spec lines98).append ((chkLines_spec lines99).append ((chkLines_spec lines100).append ((chkLines_spec lines101).append ((chkLines_spec lines102).append ((chkLines_spec lines103).append ((chkLines_spec lines104).append ((chkLines_spec lines105).append ((chkLines_spec lines106).append ((chkLines_spec lines107).append ((chkLines_spec lines108).append ((chkLines_spec lines109).append ((chkLines_spec lines110).append ((chkLines_spec lines111).append ((chkLines_spec lines112).append ((chkLines_spec lines113).append ((chkLines_spec lines114).append ((chkLines_spec lines115).append ((chkLines_spec lines116).append ((chkLines_spec lines117).append ((chkLines_spec lines118).append (chkLines_spec lines119))))))))))))))))))))))))))))))))))))))))))))))))))))))))))))))))))))))))))))))))))))))))))))))))))))))))))))))))))))))))

end U5e.Data
