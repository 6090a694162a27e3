{
 "Model/Hct|setChroma|solveToInt self.getHue newChroma self.getTone|solveToInt self.getHue self.getChroma newChroma": [
  "c23_setters (added)"
 ]
}